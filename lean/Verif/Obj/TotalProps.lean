import Verif.Obj.WriteProps
import Verif.Obj.KeyProps
/-!
# C193: a well formed mesh is written
-/
namespace Verif.Obj

variable {α : Type}

/-- The textures or the normals go with the cell: it is there, with a vertex for each of its own, all with a point. -/
def SideFits (S : Option (Side α)) (c : WCell) : Prop :=
  ∀ s, S = some s → ∃ conn, s.conn.lookup c.id = some conn ∧ conn.length = c.conn.length ∧
    ∀ x ∈ conn, ∃ p, s.verts.lookup x = some p

/-- A mesh whose cells have vertices with points, textures and normals which go with it. -/
structure Sound (M : Mesh α) : Prop where
  pts : ∀ c ∈ M.cells, ∀ x ∈ c.conn, ∃ p, M.verts.lookup x = some p
  txt : ∀ c ∈ M.cells, SideFits M.txt c
  nrm : ∀ c ∈ M.cells, SideFits M.nrm c

theorem emitPts_total (mk : Pt α → Line α) (verts : List (Int × Pt α)) :
    ∀ (ids seen : List Int), (∀ x ∈ ids, ∃ p, verts.lookup x = some p) →
      ∃ r, emitPts mk verts ids seen = some r ∧ (∀ x ∈ ids, x ∈ r.2) := by
  intro ids
  induction ids with
  | nil => intro seen _; exact ⟨_, rfl, by simp⟩
  | cons id ids ih =>
    intro seen h
    have h' : ∀ x ∈ ids, ∃ p, verts.lookup x = some p := fun x hx => h x (List.mem_cons_of_mem _ hx)
    have grow : ∀ (ids seen : List Int) r, emitPts mk verts ids seen = some r → ∀ x ∈ seen, x ∈ r.2 := by
      intro ids
      induction ids with
      | nil => intro seen r hr x hx; cases hr; exact hx
      | cons i ids ih =>
        intro seen r hr x hx
        rw [emitPts] at hr
        split at hr
        · exact ih _ _ hr x hx
        · simp only [Option.bind_eq_bind, Option.bind_eq_some_iff] at hr
          obtain ⟨p, _, q, hq, hr⟩ := hr
          cases hr
          exact ih _ _ hq x (List.mem_append_left _ hx)
    rw [emitPts]
    by_cases hc : seen.contains id = true
    · rw [if_pos hc]
      obtain ⟨r, h1, h2⟩ := ih seen h'
      refine ⟨r, h1, fun x hx => ?_⟩
      rcases List.mem_cons.1 hx with rfl | hx
      · exact grow _ _ _ h1 _ (by simpa using hc)
      · exact h2 x hx
    · rw [if_neg hc]
      obtain ⟨p, hp⟩ := h id (by simp)
      obtain ⟨r, h1, h2⟩ := ih (seen ++ [id]) h'
      refine ⟨(mk p :: r.1, r.2), by rw [hp]; simp [h1], fun x hx => ?_⟩
      rcases List.mem_cons.1 hx with rfl | hx
      · exact grow _ _ _ h1 _ (by simp)
      · exact h2 x hx

theorem index_total {seen : List Int} {x : Int} (h : x ∈ seen) : ∃ i, index seen x = some i :=
  ⟨_, if_pos (by simpa using h)⟩

theorem refsOf_total (p : Pen) :
    ∀ (vs : List Int) (t n : Option (List Int)), (∀ x ∈ vs, x ∈ p.v) →
      (∀ l, t = some l → l.length = vs.length ∧ ∀ x ∈ l, x ∈ p.t) →
      (∀ l, n = some l → l.length = vs.length ∧ ∀ x ∈ l, x ∈ p.n) → ∃ r, refsOf p vs t n = some r := by
  intro vs
  induction vs with
  | nil => intro t n _ _ _; exact ⟨_, rfl⟩
  | cons v vs ih =>
    intro t n hv ht hn
    have side : ∀ (seen : List Int) (t : Option (List Int)),
        (∀ l, t = some l → l.length = (v :: vs).length ∧ ∀ x ∈ l, x ∈ seen) →
        (∃ j, sideIndex seen t = some j) ∧
        ∀ l, t.map List.tail = some l → l.length = vs.length ∧ ∀ x ∈ l, x ∈ seen := by
      intro seen t h
      cases t with
      | none => exact ⟨⟨none, rfl⟩, by intro l hl; cases hl⟩
      | some l =>
        obtain ⟨h1, h2⟩ := h l rfl
        cases l with
        | nil => simp at h1
        | cons x l =>
          obtain ⟨i, hi⟩ := index_total (h2 x (by simp))
          refine ⟨⟨some i, by rw [sideIndex, hi]; rfl⟩, ?_⟩
          intro l' hl'
          cases hl'
          exact ⟨by simpa using h1, fun y hy => h2 y (List.mem_cons_of_mem _ hy)⟩
    obtain ⟨i, hi⟩ := index_total (hv v (by simp))
    obtain ⟨⟨j, hj⟩, ht'⟩ := side p.t t ht
    obtain ⟨⟨k, hk⟩, hn'⟩ := side p.n n hn
    obtain ⟨r, hr⟩ := ih _ _ (fun x hx => hv x (List.mem_cons_of_mem _ hx)) ht' hn'
    exact ⟨⟨i, j, k⟩ :: r, by rw [refsOf, hi, hj, hk, hr]; rfl⟩

/-- Everything a cell needs is written. -/
def Ready (M : Mesh α) (p : Pen) (c : WCell) : Prop :=
  (∀ x ∈ c.conn, x ∈ p.v) ∧
  (∀ s, M.txt = some s → ∀ conn, s.conn.lookup c.id = some conn → ∀ x ∈ conn, x ∈ p.t) ∧
  ∀ s, M.nrm = some s → ∀ conn, s.conn.lookup c.id = some conn → ∀ x ∈ conn, x ∈ p.n

theorem sideConn_total {S : Option (Side α)} {c : WCell} {seen : List Int} (h : SideFits S c)
    (hs : ∀ s, S = some s → ∀ conn, s.conn.lookup c.id = some conn → ∀ x ∈ conn, x ∈ seen) :
    ∃ t, sideConn S c.id = some t ∧ ∀ l, t = some l → l.length = c.conn.length ∧ ∀ x ∈ l, x ∈ seen := by
  cases S with
  | none => exact ⟨none, rfl, by intro l hl; cases hl⟩
  | some s =>
    obtain ⟨conn, h1, h2, _⟩ := h s rfl
    refine ⟨some conn, by rw [sideConn, h1]; rfl, ?_⟩
    intro l hl
    cases hl
    exact ⟨h2, hs s rfl conn h1⟩

theorem emitCell_total (F : Fmt α) (M : Mesh α) (hM : Sound M) (name : String) (p : Pen) (c : WCell)
    (hc : c ∈ M.cells) (hr : Ready M p c) :
    ∃ r, emitCell F M name p c = some r ∧ r.2.v = p.v ∧ r.2.t = p.t ∧ r.2.n = p.n := by
  obtain ⟨g1, _, _, g4, _⟩ := C195_keys (M.cells.map WCell.grp)
  obtain ⟨m1, _, _, m4, _⟩ := C195_keys (M.cells.map WCell.mat)
  obtain ⟨gk, hgk⟩ := (g1 c.grp).2 (List.mem_map_of_mem hc)
  obtain ⟨mk, hmk⟩ := (m1 c.mat).2 (List.mem_map_of_mem hc)
  have hmu := m4 _ _ hmk
  have hgk' : (grpKeys M).lookup c.grp = some gk := hgk
  have hmk' : (matKeys M).lookup c.mat = some mk := hmk
  have hmu' : unkey (matKeys M) mk = some c.mat := hmu
  have hgn : ∃ gs, grpName name (grpKeys M) gk = some gs := by
    unfold grpName
    by_cases h0 : gk = 0
    · exact ⟨name, if_pos h0⟩
    · exact ⟨c.grp, by rw [if_neg h0]; exact g4 _ _ hgk⟩
  obtain ⟨gs, hgs⟩ := hgn
  obtain ⟨tc, ht1, ht2⟩ := sideConn_total (hM.txt c hc) hr.2.1
  obtain ⟨nc, hn1, hn2⟩ := sideConn_total (hM.nrm c hc) hr.2.2
  obtain ⟨refs, hrefs⟩ := refsOf_total p c.conn tc nc hr.1 ht2 hn2
  refine ⟨_, by rw [emitCell, hgk', hmk']; simp only [Option.bind_eq_bind, Option.bind_some, hgs, hmu', ht1, hn1, hrefs]; rfl, rfl, rfl, rfl⟩

theorem emitCells_total (F : Fmt α) (M : Mesh α) (hM : Sound M) (name : String) :
    ∀ (cs : List WCell) (p : Pen), (∀ c ∈ cs, c ∈ M.cells) → (∀ c ∈ cs, Ready M p c) →
      ∃ r, emitCells F M name cs p = some r := by
  intro cs
  induction cs with
  | nil => intro p _ _; exact ⟨_, rfl⟩
  | cons c cs ih =>
    intro p hm hr
    obtain ⟨a, h1, h2, h3, h4⟩ := emitCell_total F M hM name p c (hm c (by simp)) (hr c (by simp))
    obtain ⟨b, h5⟩ := ih a.2 (fun d hd => hm d (List.mem_cons_of_mem _ hd)) (fun d hd => by
      have := hr d (List.mem_cons_of_mem _ hd)
      unfold Ready at this ⊢
      rw [h2, h3, h4]
      exact this)
    exact ⟨_, by rw [emitCells, h1]; simp only [Option.bind_eq_bind, Option.bind_some, h5]; rfl⟩

theorem side_total {F : Fmt α} (hb : ∀ l x, x ∈ F.bag l ↔ x ∈ l) (mk : Pt α → Line α) (S : Option (Side α))
    (cs : List WCell) (h : ∀ c ∈ cs, SideFits S c) (seen : List Int) :
    ∃ r, emitPts mk (sidePts S) (sideVerts F S cs) seen = some r ∧
      ∀ c ∈ cs, ∀ s, S = some s → ∀ conn, s.conn.lookup c.id = some conn → ∀ x ∈ conn, x ∈ r.2 := by
  cases S with
  | none => exact ⟨_, rfl, by intro c _ s hs; cases hs⟩
  | some s =>
    obtain ⟨r, h1, h2⟩ := emitPts_total mk (sidePts (some s)) (sideVerts F (some s) cs) seen (by
      intro x hx
      rw [sideVerts, hb, List.mem_flatMap] at hx
      obtain ⟨c, hc, hx⟩ := hx
      obtain ⟨conn, e1, _, e3⟩ := h c hc s rfl
      rw [e1] at hx
      exact e3 x hx)
    refine ⟨r, h1, ?_⟩
    intro c hc s' hs conn hl x hx
    cases hs
    refine h2 x ?_
    rw [sideVerts, hb, List.mem_flatMap]
    exact ⟨c, hc, by rw [hl]; exact hx⟩

theorem writeObj_total (F : Fmt α) (M : Mesh α) (hM : Sound M) (hb : ∀ l x, x ∈ F.bag l ↔ x ∈ l)
    (part : Int × String) (p : Pen) : ∃ r, writeObj F M part p = some r := by
  have hsub : ∀ c ∈ M.cells.filter fun c => c.pid == part.1, c ∈ M.cells := fun c hc => (List.mem_filter.1 hc).1
  obtain ⟨a, a1, a2⟩ := emitPts_total (fun q => .v (F.three q) false) M.verts
    (F.bag ((M.cells.filter fun c => c.pid == part.1).flatMap WCell.conn)) p.v (by
      intro x hx
      rw [hb, List.mem_flatMap] at hx
      obtain ⟨c, hc, hx⟩ := hx
      exact hM.pts c (hsub c hc) x hx)
  obtain ⟨b, b1, b2⟩ := side_total hb F.vt M.txt (M.cells.filter fun c => c.pid == part.1)
    (fun c hc => hM.txt c (hsub c hc)) p.t
  obtain ⟨c, c1, c2⟩ := side_total hb (fun q => .vn (F.three q) false) M.nrm
    (M.cells.filter fun c => c.pid == part.1) (fun c hc => hM.nrm c (hsub c hc)) p.n
  have hperm := C195_regroup M (M.cells.filter fun c => c.pid == part.1) hsub
  obtain ⟨d, d1⟩ := emitCells_total F M hM part.2 (regroup M (M.cells.filter fun c => c.pid == part.1))
    { p with v := a.2, t := b.2, n := c.2, g := -1000 } (fun e he => hsub e (hperm.mem_iff.1 he)) (by
      intro e he
      have he := hperm.mem_iff.1 he
      refine ⟨fun x hx => a2 x ?_, b2 e he, c2 e he⟩
      rw [hb, List.mem_flatMap]
      exact ⟨e, he, hx⟩)
  exact ⟨_, by
    rw [writeObj]
    simp only [Option.bind_eq_bind, a1, b1, c1, d1, Option.bind_some]
    rfl⟩

/-- **C193, the writing ends.**  A mesh whose cells have vertices with points, and whose textures and normals, when there
are, go with its cells, is written. -/
theorem C193_written (F : Fmt α) (M : Mesh α) (hM : Sound M) (hb : ∀ l x, x ∈ F.bag l ↔ x ∈ l) :
    ∃ file, write F M = some file := by
  have : ∀ (ps : List (Int × String)) (p : Pen), ∃ os, writeParts F M ps p = some os := by
    intro ps
    induction ps with
    | nil => intro p; exact ⟨_, rfl⟩
    | cons part ps ih =>
      intro p
      obtain ⟨a, ha⟩ := writeObj_total F M hM hb part p
      obtain ⟨b, hb'⟩ := ih a.2
      exact ⟨_, by rw [writeParts, ha]; simp only [Option.bind_eq_bind, Option.bind_some, hb']; rfl⟩
  obtain ⟨os, ho⟩ := this M.parts {}
  exact ⟨_, by rw [write, ho]; rfl⟩

/-- a mesh with textures of its own -/
def dressed : Mesh Nat where
  verts := [(1, (0, 0, 0)), (2, (1, 0, 0)), (3, (0, 1, 0)), (4, (1, 1, 0))]
  cells := [⟨10, [1, 2, 3], 0, "steel", "", 0⟩, ⟨11, [2, 4, 3], 1, "", "top", 2⟩]
  parts := [(0, "a"), (1, "b")]
  txt := some ⟨[(7, (5, 5, 0)), (8, (6, 5, 0))], [(10, [7, 8, 7]), (11, [8, 8, 8])]⟩

example : Sound dressed := by
  refine ⟨?_, ?_, ?_⟩
  · intro c hc x hx
    have : (dressed.verts.lookup x).isSome = true := by
      revert c
      have : ∀ c ∈ dressed.cells, ∀ x ∈ c.conn, (dressed.verts.lookup x).isSome = true := by decide
      exact fun c hc hx => this c hc x hx
    exact Option.isSome_iff_exists.1 this
  · intro c hc s hs
    cases hs
    have : c = ⟨10, [1, 2, 3], 0, "steel", "", 0⟩ ∨ c = ⟨11, [2, 4, 3], 1, "", "top", 2⟩ := by simpa [dressed] using hc
    rcases this with rfl | rfl
    · refine ⟨[7, 8, 7], rfl, rfl, fun x hx => Option.isSome_iff_exists.1 ?_⟩
      revert x; decide
    · refine ⟨[8, 8, 8], rfl, rfl, fun x hx => Option.isSome_iff_exists.1 ?_⟩
      revert x; decide
  · intro c _ s hs
    cases hs

end Verif.Obj
