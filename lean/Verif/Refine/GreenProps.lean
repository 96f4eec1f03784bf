import Verif.Refine.RedProps
/-
Red-green refinement of some cells: which sides are cut, and what becomes of each cell.
-/
namespace Verif.Refine
open Verif.Field Verif.Mesh
open List hiding get get_of_mem

variable {P : Type}

/-- the ends of a side of a triangle -/
def side (c : Cell) (f : Nat) : Nat × Nat := (c.conn.getD f 0, c.conn.getD ((f + 1) % 3) 0)

/-- specification: the least set of edges that holds the sides of the active cells, and with two sides of a cell the
third -/
inductive Cut (cells : Data Cell) (active : List Nat) : Nat → Nat → Prop
  | active {e : Nat × Cell} {f : Nat} : e ∈ cells → e.1 ∈ active → f < 3 → Cut cells active (side e.2 f).1 (side e.2 f).2
  | symm {a b : Nat} : Cut cells active a b → Cut cells active b a
  | close {e : Nat × Cell} {f f' f'' : Nat} : e ∈ cells → f < 3 → f' < 3 → f ≠ f' → f'' < 3 →
      Cut cells active (side e.2 f).1 (side e.2 f).2 → Cut cells active (side e.2 f').1 (side e.2 f').2 →
      Cut cells active (side e.2 f'').1 (side e.2 f'').2

/-- the adjacencies and interfaces are those of a surface where at most two cells meet at a side -/
structure Sound (T : Topo) (cells : Data Cell) : Prop where
  wired : Wired T cells
  /-- equal sides have one interface -/
  same : ∀ e ∈ cells, ∀ e' ∈ cells, ∀ f f', f < 3 → f' < 3 →
    [(side e.2 f).1, (side e.2 f).2].Perm [(side e'.2 f').1, (side e'.2 f').2] → T.itf e.1 f = T.itf e'.1 f'
  /-- neighbours are the other cells with that interface, at most one -/
  nbr : ∀ e ∈ cells, ∀ f, f < 3 → ∀ n, n ∈ T.nbrs e.1 f ↔ n ≠ e.1 ∧ has cells n = true ∧ ∃ f', f' < 3 ∧ T.itf n f' = T.itf e.1 f
  one : ∀ e ∈ cells, ∀ f, f < 3 → (T.nbrs e.1 f).length ≤ 1
  /-- the face of the neighbour, as the interface tells it -/
  own : ∀ e ∈ cells, ∀ f, f < 3 → ∀ n ∈ T.nbrs e.1 f, faceOf T (e.1, f, n) < 3 ∧ T.itf n (faceOf T (e.1, f, n)) = T.itf e.1 f

/-- all sides of a cell are cut -/
def AllCut (cells : Data Cell) (active : List Nat) (n : Nat) : Prop :=
  ∀ c, (n, c) ∈ cells → ∀ f, f < 3 → Cut cells active (side c f).1 (side c f).2

theorem cut_perm {cells : Data Cell} {active : List Nat} {a b a' b' : Nat} (h : Cut cells active a b)
    (hp : [a, b].Perm [a', b']) : Cut cells active a' b' := by
  rcases perm_two hp with h' | h'
  · injection h' with h1 h2; injection h2 with h2; subst h1; subst h2; exact h
  · injection h' with h1 h2; injection h2 with h2; subst h1; subst h2; exact h.symm

theorem cut_itf {T : Topo} {cells : Data Cell} {active : List Nat} (hok : Ok cells) (hw : Wired T cells) {e e' : Nat × Cell}
    (he : e ∈ cells) (he' : e' ∈ cells) {f f' : Nat} (hf : f < 3) (hf' : f' < 3) (hi : T.itf e.1 f = T.itf e'.1 f')
    (h : Cut cells active (side e.2 f).1 (side e.2 f).2) : Cut cells active (side e'.2 f').1 (side e'.2 f').2 := by
  have p := hw.ends e.1 e.2 f (get_of_mem hok he) hf
  have p' := hw.ends e'.1 e'.2 f' (get_of_mem hok he') hf'
  rw [hi] at p
  exact cut_perm h (p.symm.trans p')

theorem mem_of_has {cells : Data Cell} {n : Nat} (h : has cells n = true) : ∃ c, (n, c) ∈ cells := by
  rw [has_eq_isSome, Option.isSome_iff_exists] at h
  obtain ⟨c, hc⟩ := h
  exact ⟨c, get_some_mem hc⟩

/-- what is known of the incidences met so far -/
structure Origin (T : Topo) (cells : Data Cell) (active : List Nat) (inc : List (Nat × Nat × Nat)) (popped : List Nat)
    (s : Marks) : Prop where
  cut : ∀ n ∈ popped ++ s.queue, AllCut cells active n
  here : ∀ x ∈ inc, x.1 ∈ popped ∧ x.2.1 < 3 ∧ x.2.2 ∈ T.nbrs x.1 x.2.1

theorem face_origin {T : Topo} {cells : Data Cell} (hok : Ok cells) (hs : Sound T cells)
    {active popped : List Nat} (hp : ∀ i ∈ popped, has cells i = true) {inc : List (Nat × Nat × Nat)} {s : Marks} {r f : Nat}
    (hr : r ∈ popped) (hf : f < 3) (hn : ∀ x ∈ inc, x.1 = r → x.2.1 ≠ f) (hd : ∀ e ∈ cells, ∀ f f', f < 3 → f' < 3 →
      T.itf e.1 f = T.itf e.1 f' → f = f') (hm : Mid T active inc popped s)
    (h : Origin T cells active inc popped s) :
    Origin T cells active (inc ++ (T.nbrs r f).map fun n => (r, f, n)) popped (visitFace T r s f) := by
  obtain ⟨cr, hcr⟩ := mem_of_has (hp r hr)
  have hhere : ∀ x ∈ inc ++ (T.nbrs r f).map (fun n => (r, f, n)), x.1 ∈ popped ∧ x.2.1 < 3 ∧ x.2.2 ∈ T.nbrs x.1 x.2.1 := by
    intro x hx
    rcases mem_append.1 hx with hx | hx
    · exact h.here x hx
    · obtain ⟨n, hnn, rfl⟩ := mem_map.1 hx
      exact ⟨hr, hf, hnn⟩
  refine ⟨?_, hhere⟩
  unfold visitFace
  split
  · exact h.cut
  · next hne =>
    match hl : T.nbrs r f with
    | [] => exact absurd hl hne
    | _ :: _ :: _ =>
      have := hs.one (r, cr) hcr f hf
      simp only [hl, length_cons] at this
      omega
    | [n] =>
      simp only [foldl_cons, foldl_nil]
      have hnn : n ∈ T.nbrs r f := by rw [hl]; simp
      unfold meet
      simp only
      split
      · exact h.cut
      · split
        · next ht =>
          simp only
          intro k hk
          rw [← append_assoc, mem_append, mem_singleton] at hk
          rcases hk with hk | rfl
          · exact h.cut k hk
          · -- the second incidence
            intro c hc f'' hf''
            have htag := hm.tag k
            have hna : k ∉ active := by
              intro ha
              rw [if_pos ha] at htag
              omega
            rw [if_neg hna] at htag
            have hpos : 0 < met inc k := by omega
            unfold met at hpos
            rw [countP_pos_iff] at hpos
            obtain ⟨x, hx, hxk⟩ := hpos
            simp only [beq_iff_eq] at hxk
            obtain ⟨hx1, hx2, hx3⟩ := h.here x hx
            rw [hxk] at hx3
            obtain ⟨cx, hcx⟩ := mem_of_has (hp x.1 hx1)
            obtain ⟨n1, n2, f1, hf1, n3⟩ := (hs.nbr (r, cr) hcr f hf k).1 hnn
            obtain ⟨m1, m2, f2, hf2, m3⟩ := (hs.nbr (x.1, cx) hcx x.2.1 hx2 k).1 hx3
            have hneq : f1 ≠ f2 := by
              rintro rfl
              have hi : T.itf r f = T.itf x.1 x.2.1 := n3.symm.trans m3
              by_cases hrx : x.1 = r
              · have := hd (r, cr) hcr f x.2.1 hf hx2 (by rw [hrx] at hi; exact hi)
                exact hn x hx hrx this.symm
              · have h1 : x.1 ∈ T.nbrs r f := (hs.nbr (r, cr) hcr f hf x.1).2 ⟨hrx, hp x.1 hx1, x.2.1, hx2, hi.symm⟩
                rw [hl, mem_singleton] at h1
                exact m1 h1.symm
            refine Cut.close hc hf1 hf2 hneq hf'' ?_ ?_
            · exact cut_itf hok hs.wired hcr hc hf hf1 n3.symm (h.cut r (by simp [hr]) cr hcr f hf)
            · exact cut_itf hok hs.wired hcx hc hx2 hf2 m3.symm (h.cut x.1 (by simp [hx1]) cx hcx x.2.1 hx2)
        · split <;> exact h.cut

theorem visit_origin {T : Topo} {cells : Data Cell} (hok : Ok cells) (hs : Sound T cells) {active popped : List Nat}
    (hd : ∀ e ∈ cells, ∀ f f', f < 3 → f' < 3 → T.itf e.1 f = T.itf e.1 f' → f = f')
    (hp : ∀ i ∈ popped, has cells i = true) {s : Marks} {r : Nat} {q : List Nat} (hq : s.queue = r :: q)
    (hr : has cells r = true) (hb : Between T active popped s) (h : Origin T cells active (popped.flatMap (incs T)) popped s) :
    Origin T cells active ((popped ++ [r]).flatMap (incs T)) (popped ++ [r])
      ([0, 1, 2].foldl (visitFace T r) { s with queue := q }) := by
  have h0 : Mid T active (popped.flatMap (incs T)) (popped ++ [r]) { s with queue := q } := by
    refine ⟨hb.mid.tag, ?_, ?_, hb.mid.green⟩
    · intro n
      have := hb.mid.red n
      rw [hq] at this
      simpa using this
    · have := hb.mid.once
      rw [hq] at this
      simpa using this
  have g0 : Origin T cells active (popped.flatMap (incs T)) (popped ++ [r]) { s with queue := q } := by
    refine ⟨?_, ?_⟩
    · intro n hn
      apply h.cut
      rw [hq]
      simpa using hn
    · intro x hx
      obtain ⟨a, b, c⟩ := h.here x hx
      exact ⟨by simp [a], b, c⟩
  have hp' : ∀ i ∈ popped ++ [r], has cells i = true := by
    intro i hi
    rcases mem_append.1 hi with h | h
    · exact hp i h
    · rw [mem_singleton.1 h]; exact hr
  have hrn : r ∉ popped := by
    have := hb.mid.once
    rw [hq] at this
    intro hm
    rw [nodup_append] at this
    exact this.2.2 r hm r (by simp) rfl
  have k0 : ∀ x ∈ popped.flatMap (incs T), x.1 ≠ r := by
    intro x hx hxr
    have := (h.here x hx).1
    rw [hxr] at this
    exact hrn this
  have m1 := face_mid r 0 h0
  have o1 := face_origin hok hs hp' (r := r) (f := 0) (by simp) (by omega) (fun x hx hxr => absurd hxr (k0 x hx)) hd h0 g0
  have m2 := face_mid r 1 m1
  have o2 := face_origin hok hs hp' (r := r) (f := 1) (by simp) (by omega) (by
    intro x hx hxr
    rcases mem_append.1 hx with hx | hx
    · exact absurd hxr (k0 x hx)
    · obtain ⟨n, _, rfl⟩ := mem_map.1 hx; simp) hd m1 o1
  have o3 := face_origin hok hs hp' (r := r) (f := 2) (by simp) (by omega) (by
    intro x hx hxr
    rcases mem_append.1 hx with hx | hx
    · rcases mem_append.1 hx with hx | hx
      · exact absurd hxr (k0 x hx)
      · obtain ⟨n, _, rfl⟩ := mem_map.1 hx; simp
    · obtain ⟨n, _, rfl⟩ := mem_map.1 hx; simp) hd m2 o2
  simpa [flatMap_append, incs, append_assoc] using o3

theorem run_origin {T : Topo} {cells : Data Cell} (hok : Ok cells) (hs : Sound T cells) {active : List Nat}
    (hd : ∀ e ∈ cells, ∀ f f', f < 3 → f' < 3 → T.itf e.1 f = T.itf e.1 f' → f = f')
    (htri : ∀ c ∈ cells, c.2.elem = .triangle) {s : Marks} {x : Option Marks} (hr : Runs (pop T cells) s x) :
    ∀ {popped : List Nat} {m : Marks}, x = some m → (∀ i ∈ popped, has cells i = true) → Between T active popped s →
      Origin T cells active (popped.flatMap (incs T)) popped s →
      ∃ reds, Between T active reds m ∧ m.queue = [] ∧ (∀ i ∈ reds, has cells i = true) ∧
        Origin T cells active (reds.flatMap (incs T)) reds m := by
  induction hr with
  | @done s r e =>
    intro popped m hx hp hb ho
    injection hx with hx
    subst hx
    unfold pop at e
    split at e
    · next hq => injection e with e; subst e; exact ⟨popped, hb, hq, hp, ho⟩
    · split at e
      · cases e
      · split at e <;> cases e
  | fail e => intro popped m hx; cases hx
  | @next s s' r e _ ih =>
    intro popped m hx hp hb ho
    unfold pop at e
    split at e
    · cases e
    · next r0 q hq =>
      split at e
      · cases e
      · next c hc =>
        have hh : has cells r0 = true := by rw [has_eq_isSome, hc]; rfl
        rw [if_pos (htri _ (get_some_mem hc))] at e
        injection e with e
        subst e
        refine ih hx ?_ (visit_between hq hb) (visit_origin hok hs hd hp hq hh hb ho)
        intro i hi
        rcases mem_append.1 hi with h | h
        · exact hp i h
        · rw [mem_singleton.1 h]; exact hh

theorem countP_two {α : Type} {p : α → Bool} {x y : α} : ∀ {l : List α}, x ∈ l → y ∈ l → x ≠ y → p x = true → p y = true →
    2 ≤ l.countP p := by
  intro l
  induction l with
  | nil => intro h; cases h
  | cons a l ih =>
    intro hx hy hxy px py
    rw [countP_cons]
    rcases mem_cons.1 hx with rfl | hx' <;> rcases mem_cons.1 hy with rfl | hy'
    · exact absurd rfl hxy
    · have : 0 < l.countP p := countP_pos_iff.2 ⟨y, hy', py⟩
      rw [if_pos px]; omega
    · have : 0 < l.countP p := countP_pos_iff.2 ⟨x, hx', px⟩
      rw [if_pos py]; omega
    · have := ih hx' hy' hxy px py
      split <;> omega

/-- what the propagation finds: the sides to split are exactly those that are to be cut -/
structure Found (T : Topo) (cells : Data Cell) (active : List Nat) (m : Marks) : Prop where
  cut : ∀ e ∈ cells, ∀ f, f < 3 → (T.itf e.1 f ∈ m.edges ↔ Cut cells active (side e.2 f).1 (side e.2 f).2)
  edges : ∀ i ∈ m.edges, ∃ e ∈ cells, ∃ f, f < 3 ∧ i = T.itf e.1 f
  nodup : m.edges.Nodup
  none : ∀ e ∈ cells, m.tag e.1 = 0 → ∀ f, f < 3 → T.itf e.1 f ∉ m.edges
  green : ∀ e ∈ cells, m.tag e.1 = 1 → ∃ g, g < 3 ∧ m.green e.1 = some g ∧ ∀ f, f < 3 → (T.itf e.1 f ∈ m.edges ↔ f = g)
  red : ∀ e ∈ cells, 2 ≤ m.tag e.1 → ∀ f, f < 3 → T.itf e.1 f ∈ m.edges

theorem found {T : Topo} {o : Obj P} (h : TriMesh o) (hs : Sound T o.cells) {active : List Nat} (hn : active.Nodup)
    (ha : ∀ i ∈ active, has o.cells i = true) :
    ∃ m, Runs (pop T o.cells) (marks active) (some m) ∧ Found T o.cells active m := by
  have hok := h.surf.cells
  have hd : ∀ e ∈ o.cells, ∀ f f', f < 3 → f' < 3 → T.itf e.1 f = T.itf e.1 f' → f = f' :=
    fun e he f f' hf hf' hi => itf_inj h hs.wired he hf hf' hi
  have htri : ∀ c ∈ o.cells, c.2.elem = .triangle := fun c hc => (h.tri c hc).1
  obtain ⟨_, m, r1, -, -, -⟩ := spread hs.wired htri hn ha
  have h0 : Origin T o.cells active (([] : List Nat).flatMap (incs T)) [] (marks active) := by
    refine ⟨?_, by simp⟩
    intro n hn c hc f hf
    exact Cut.active hc (by simpa [marks] using hn) hf
  obtain ⟨reds, b, hq, hp, ho⟩ := run_origin hok hs hd htri r1 rfl (by simp) (start_between T hn) h0
  have hred : ∀ n, n ∈ reds ↔ 2 ≤ m.tag n := by
    intro n
    have := b.mid.red n
    rw [hq] at this
    simpa using this
  have hall : ∀ e ∈ o.cells, e.1 ∈ reds → ∀ f, f < 3 → T.itf e.1 f ∈ m.edges :=
    fun e he hr f hf => (b.edges _).2 ⟨e.1, hr, f, hf, rfl⟩
  -- an incidence for each face of a cell that is not red and has its interface among the edges
  have hinc : ∀ e ∈ o.cells, e.1 ∉ reds → ∀ f, f < 3 → T.itf e.1 f ∈ m.edges →
      ∃ r g, g < 3 ∧ T.itf r g = T.itf e.1 f ∧ (r, g, e.1) ∈ reds.flatMap (incs T) := by
    intro e he hnr f hf hi
    obtain ⟨r, hr, g, hg, hrg⟩ := (b.edges _).1 hi
    obtain ⟨c, hc⟩ := mem_of_has (hp r hr)
    have hne : e.1 ≠ r := fun hh => hnr (hh ▸ hr)
    have hnb : e.1 ∈ T.nbrs r g := (hs.nbr (r, c) hc g hg e.1).2
      ⟨hne, (has_iff _ _).2 (mem_map_of_mem he), f, hf, hrg⟩
    refine ⟨r, g, hg, hrg.symm, mem_flatMap.2 ⟨r, hr, ?_⟩⟩
    unfold incs
    refine mem_flatMap.2 ⟨g, ?_, mem_map.2 ⟨e.1, hnb, rfl⟩⟩
    have : g = 0 ∨ g = 1 ∨ g = 2 := by omega
    simpa using this
  have htwo : ∀ e ∈ o.cells, ∀ f f', f < 3 → f' < 3 → f ≠ f' → T.itf e.1 f ∈ m.edges → T.itf e.1 f' ∈ m.edges → e.1 ∈ reds := by
    intro e he f f' hf hf' hne h1 h2
    apply Classical.byContradiction
    intro hnr
    obtain ⟨r, g, _, hrg, hx⟩ := hinc e he hnr f hf h1
    obtain ⟨r', g', _, hrg', hx'⟩ := hinc e he hnr f' hf' h2
    apply hnr
    rw [hred, b.mid.tag]
    have : 2 ≤ met (reds.flatMap (incs T)) e.1 := by
      refine countP_two hx hx' ?_ (by simp) (by simp)
      intro hh
      injection hh with a1 a2
      injection a2 with a2
      subst a1; subst a2
      exact hne (hd e he f f' hf hf' (hrg.symm.trans hrg'))
    omega
  refine ⟨m, r1, ⟨?_, ?_, b.nodup, ?_, ?_, ?_⟩⟩
  · intro e he f hf
    constructor
    · intro hi
      obtain ⟨r, hr, g, hg, hrg⟩ := (b.edges _).1 hi
      obtain ⟨c, hc⟩ := mem_of_has (hp r hr)
      exact cut_itf hok hs.wired hc he hg hf hrg.symm (ho.cut r (by simp [hr]) c hc g hg)
    · intro hcut
      have key : ∀ p q, Cut o.cells active p q → ∃ e ∈ o.cells, ∃ f, f < 3 ∧ [p, q].Perm [(side e.2 f).1, (side e.2 f).2] ∧
          T.itf e.1 f ∈ m.edges := by
        intro p q hc
        induction hc with
        | @active e f he hea hf =>
          refine ⟨e, he, f, hf, .refl _, hall e he ?_ f hf⟩
          rw [hred, b.mid.tag, if_pos hea]
          omega
        | symm _ ih =>
          obtain ⟨e, he, f, hf, hp, hi⟩ := ih
          exact ⟨e, he, f, hf, (Perm.swap ..).trans hp, hi⟩
        | @close e f f' f'' he hf hf' hne hf'' _ _ ih1 ih2 =>
          obtain ⟨e1, he1, g1, hg1, p1, i1⟩ := ih1
          obtain ⟨e2, he2, g2, hg2, p2, i2⟩ := ih2
          rw [← hs.same e he e1 he1 f g1 hf hg1 p1] at i1
          rw [← hs.same e he e2 he2 f' g2 hf' hg2 p2] at i2
          exact ⟨e, he, f'', hf'', .refl _, hall e he (htwo e he f f' hf hf' hne i1 i2) f'' hf''⟩
      obtain ⟨e', he', f', hf', hpp, hi⟩ := key _ _ hcut
      rwa [hs.same e he e' he' f f' hf hf' hpp]
  · intro i hi
    obtain ⟨r, hr, f, hf, rfl⟩ := (b.edges i).1 hi
    obtain ⟨c, hc⟩ := mem_of_has (hp r hr)
    exact ⟨(r, c), hc, f, hf, rfl⟩
  · intro e he ht f hf hi
    have hnr : e.1 ∉ reds := by rw [hred]; omega
    obtain ⟨r, g, _, _, hx⟩ := hinc e he hnr f hf hi
    have : 0 < met (reds.flatMap (incs T)) e.1 := countP_pos_iff.2 ⟨_, hx, by simp⟩
    have := b.mid.tag e.1
    omega
  · intro e he ht
    have hnr : e.1 ∉ reds := by rw [hred]; omega
    obtain ⟨x, hx, hxe, hg⟩ := b.mid.green e.1 ht
    obtain ⟨hx1, hx2, hx3⟩ := ho.here x hx
    obtain ⟨c, hc⟩ := mem_of_has (hp x.1 hx1)
    have hxx : x = (x.1, x.2.1, e.1) := by rw [← hxe]
    have hown := hs.own (x.1, c) hc x.2.1 hx2 e.1 (by rw [← hxe]; exact hx3)
    simp only [← hxx] at hown
    have hie : T.itf e.1 (faceOf T x) ∈ m.edges := by
      rw [hown.2]
      exact (b.edges _).2 ⟨x.1, hx1, x.2.1, hx2, rfl⟩
    refine ⟨faceOf T x, hown.1, hg, ?_⟩
    intro f hf
    constructor
    · intro hi
      apply Classical.byContradiction
      intro hne
      exact hnr (htwo e he f _ hf hown.1 hne hi hie)
    · rintro rfl; exact hie
  · intro e he ht f hf
    exact hall e he ((hred _).2 ht) f hf

/-! ### C151 -/

open Classical in
/-- specification: what a triangle becomes when the sides in `S` are cut and `w f` is the middle of the side `f` -/
noncomputable def kids (S : Nat → Nat → Prop) (w : Nat → Nat) (c : Cell) : List Cell :=
  match c.conn with
  | [a, b, d] =>
    if S a b ∧ S b d ∧ S d a then (quarter a b d (w 0) (w 1) (w 2)).map (tri c.pid)
    else if S a b then [[w 0, b, d], [w 0, d, a]].map (tri c.pid)
    else if S b d then [[w 1, d, a], [w 1, a, b]].map (tri c.pid)
    else if S d a then [[w 2, a, b], [w 2, b, d]].map (tri c.pid)
    else [c]
  | _ => [c]

/-- C151: the result of the refinement of some cells; `w id f` is the new vertex on the side `f` of the cell `id` -/
structure Conforming (mean : List P → P) (active : List Nat) (o o' : Obj P) (w : Nat → Nat → Nat) : Prop where
  /-- old vertices as they were; every new vertex is on a side that is cut -/
  verts : ∃ vs, o'.verts = o.verts ++ vs ∧ ∀ v ∈ vs, ∃ e ∈ o.cells, ∃ f, f < 3 ∧
    Cut o.cells active (side e.2 f).1 (side e.2 f).2 ∧ v.1 = w e.1 f
  new : ∀ e ∈ o.cells, ∀ f, f < 3 → Cut o.cells active (side e.2 f).1 (side e.2 f).2 → has o.verts (w e.1 f) = false
  /-- the new vertex is the mean of the ends of the side -/
  pos : ∀ e ∈ o.cells, ∀ f, f < 3 → Cut o.cells active (side e.2 f).1 (side e.2 f).2 → ∀ pa pb,
    get o.verts (side e.2 f).1 = some pa → get o.verts (side e.2 f).2 = some pb → get o'.verts (w e.1 f) = some (mean [pa, pb])
  /-- sides that are cut have the same new vertex exactly when they are the same edge -/
  shared : ∀ e ∈ o.cells, ∀ f, f < 3 → ∀ e' ∈ o.cells, ∀ f', f' < 3 → Cut o.cells active (side e.2 f).1 (side e.2 f).2 →
    Cut o.cells active (side e'.2 f').1 (side e'.2 f').2 →
    (w e.1 f = w e'.1 f' ↔ [(side e.2 f).1, (side e.2 f).2].Perm [(side e'.2 f').1, (side e'.2 f').2])
  cells : (o'.cells.map Prod.snd).Perm (o.cells.flatMap fun e => kids (Cut o.cells active) (w e.1) e.2)
  /-- ids: cells without a cut side are the only old cells left -/
  kept : ∀ c, c ∈ o'.cells → has o.cells c.1 = true → c ∈ o.cells
  stay : ∀ e ∈ o.cells, e ∈ o'.cells ↔ ∀ f, f < 3 → ¬ Cut o.cells active (side e.2 f).1 (side e.2 f).2
  pids : o'.pids = o.pids
  names : o'.names = o.names

theorem child_green {T : Topo} {m : Marks} {em : Data Nat} {id : Nat} {c : Cell} {g : Nat} (ht : c.elem = .triangle)
    (htag : m.tag id = 1) (hg : m.green id = some g) (hem : T.itf id g ∈ em.map Prod.fst) :
    childTris T m em id c = some (greenTris c.conn (mid em (T.itf id g)) g) := by
  unfold childTris
  simp [htag, hg, get_mid hem, ht]

theorem child_none {T : Topo} {m : Marks} {em : Data Nat} {id : Nat} {c : Cell} (htag : m.tag id = 0) :
    childTris T m em id c = some [] := by
  unfold childTris
  simp [htag]

theorem split_perm {l : Data Cell} (p : Nat × Cell → Bool) (G : Nat × Cell → List Cell) (hG : ∀ e ∈ l, p e = true → G e = []) :
    ((l.filter p).map Prod.snd ++ l.flatMap G).Perm (l.flatMap fun e => if p e = true then [e.2] else G e) := by
  induction l with
  | nil => exact .refl _
  | cons e l ih =>
    have ih := ih (fun x hx => hG x (by simp [hx]))
    by_cases hp : p e = true
    · simp only [filter_cons, hp, if_true, map_cons, flatMap_cons, hG e (by simp) hp, nil_append, cons_append, singleton_append]
      exact ih.cons _
    · simp only [filter_cons, hp, flatMap_cons]
      refine (perm_append_comm_assoc ..).trans ?_
      exact ih.append_left _

/-- C151: on a surface of triangles whose sides belong to at most two cells each, the red-green refinement of any set
of cells ends and succeeds; the edges that are cut are the least set that holds the sides of these cells and, with two
sides of a cell, the third; each cell becomes four, two or one accordingly, and cells on both sides of an edge
share its new vertex. -/
theorem C151_redgreen {g : Gen P} (hg : GenOk g) {mean : List P → P} (hm : Symm mean) {T : Topo} {o : Obj P} (h : TriMesh o)
    (ht : TreeOk o) (hs : Sound T o.cells) {active : List Nat} (hn : active.Nodup)
    (ha : ∀ i ∈ active, has o.cells i = true) {ord : List Nat} (hord : ord.Perm (cellIds o)) :
    ∃ o' w, RedGreen g mean T ord active o o' ∧ Conforming mean active o o' w ∧ SurfOk o' ∧ TreeOk o' ∧ Fresh o' ∧
      (∀ c ∈ o'.cells, c.2.elem = .triangle) := by
  obtain ⟨m, r1, F⟩ := found h hs hn ha
  have hw := hs.wired
  obtain ⟨hsm, hsk⟩ := prepared o
  have hs1 := surfOk_same h.surf hsm
  have ht1 := treeOk_prepared ht
  have hcomp := h.surf.comp
  unfold complete at hcomp
  rw [all_eq_true] at hcomp
  have hsides : ∀ e ∈ o.cells, ∀ f, f < 3 → ∀ v ∈ T.ends (T.itf e.1 f), has o.verts v = true := by
    intro e he f hf v hv
    have hp := hw.ends e.1 e.2 f (get_of_mem h.surf.cells he) hf
    obtain ⟨a, b, d, hc, -, -, -, hvi⟩ := tri_conn h he
    have hall := hcomp e he
    rw [all_eq_true, hvi] at hall
    rw [hp.mem_iff, hc] at hv
    apply hall
    have hff : f = 0 ∨ f = 1 ∨ f = 2 := by omega
    rcases hff with rfl | rfl | rfl <;> simp at hv ⊢ <;> grind
  have hends : ∀ i ∈ m.edges, ∀ v ∈ T.ends i, has (updateInt (updateAdj o)).verts v = true := by
    intro i hi v hv
    rw [hsm.verts]
    obtain ⟨e, he, f, hf, rfl⟩ := F.edges i hi
    exact hsides e he f hf v hv
  have hkey : ∀ em : Data Nat, em.map Prod.fst = ordered m.edges → ∀ i, i ∈ em.map Prod.fst ↔ i ∈ m.edges := by
    intro em hem i
    rw [hem, mem_ordered]
  let ts : Data Nat → Nat × Cell → List (List Nat) := fun em e => (childTris T m em e.1 e.2).getD []
  -- what the code makes of each cell
  have hkid : ∀ em : Data Nat, em.map Prod.fst = ordered m.edges → ∀ e ∈ o.cells, childTris T m em e.1 e.2 = some (ts em e) ∧
      (∀ t ∈ ts em e, t.length = 3 ∧ ∀ v ∈ t, v ∈ vertexIds e.2 ∨ v ∈ em.map Prod.snd) ∧
      kids (Cut o.cells active) (fun f => mid em (T.itf e.1 f)) e.2 =
        (if ts em e = [] then [e.2] else (ts em e).map (tri e.2.pid)) ∧
      (ts em e = [] ↔ ∀ f, f < 3 → ¬ Cut o.cells active (side e.2 f).1 (side e.2 f).2) := by
    intro em hem e he
    obtain ⟨a, b, d, hc, n1, n2, n3, hvi⟩ := tri_conn h he
    have hel := (h.tri e he).1
    have hk := hkey em hem
    have s0 : side e.2 0 = (a, b) := by simp [side, hc]
    have s1 : side e.2 1 = (b, d) := by simp [side, hc]
    have s2 : side e.2 2 = (d, a) := by simp [side, hc]
    have c0 := F.cut e he 0 (by omega)
    have c1 := F.cut e he 1 (by omega)
    have c2 := F.cut e he 2 (by omega)
    rw [s0] at c0
    rw [s1] at c1
    rw [s2] at c2
    simp only at c0 c1 c2
    have all3 : ∀ Q : Nat → Prop, (∀ f, f < 3 → Q f) ↔ Q 0 ∧ Q 1 ∧ Q 2 := by
      intro Q
      constructor
      · intro hq; exact ⟨hq 0 (by omega), hq 1 (by omega), hq 2 (by omega)⟩
      · rintro ⟨q0, q1, q2⟩ f hf
        have : f = 0 ∨ f = 1 ∨ f = 2 := by omega
        rcases this with rfl | rfl | rfl <;> assumption
    have hcase : m.tag e.1 = 0 ∨ m.tag e.1 = 1 ∨ 2 ≤ m.tag e.1 := by omega
    rcases hcase with t0 | t1 | t2
    · have hch : childTris T m em e.1 e.2 = some [] := child_none t0
      have hts : ts em e = [] := by simp [ts, hch]
      have q := F.none e he t0
      rw [all3] at q
      have k0 : ¬ Cut o.cells active a b := fun hh => q.1 (c0.2 hh)
      have k1 : ¬ Cut o.cells active b d := fun hh => q.2.1 (c1.2 hh)
      have k2 : ¬ Cut o.cells active d a := fun hh => q.2.2 (c2.2 hh)
      refine ⟨by rw [hch, hts], by rw [hts]; simp, ?_, ?_⟩
      · simp [hts, kids, hc, k0, k1, k2]
      · simp only [hts, true_iff]
        rw [all3, s0, s1, s2]
        exact ⟨k0, k1, k2⟩
    · obtain ⟨j, hj, hgr, hjj⟩ := F.green e he t1
      have hmem : T.itf e.1 j ∈ em.map Prod.fst := (hk _).2 ((hjj j hj).2 rfl)
      have hch := child_green (T := T) (em := em) (c := e.2) hel t1 hgr hmem
      have hts : ts em e = greenTris e.2.conn (mid em (T.itf e.1 j)) j := by simp [ts, hch]
      have q0 := hjj 0 (by omega)
      have q1 := hjj 1 (by omega)
      have q2 := hjj 2 (by omega)
      rw [c0] at q0
      rw [c1] at q1
      rw [c2] at q2
      have hmm := mid_mem hmem
      have h2 : List.range 2 = [0, 1] := rfl
      have hjc : j = 0 ∨ j = 1 ∨ j = 2 := by omega
      refine ⟨by rw [hch, hts], ?_, ?_, ?_⟩
      · rw [hts, hvi, hc]
        rcases hjc with rfl | rfl | rfl <;> simp [greenTris, h2] at hmm ⊢ <;> grind
      · rw [hts]
        rcases hjc with rfl | rfl | rfl
        · have k0 : Cut o.cells active a b := q0.2 rfl
          have k1 : ¬ Cut o.cells active b d := fun hh => absurd (q1.1 hh) (by omega)
          simp [kids, hc, k0, k1, greenTris, h2]
        · have k1 : Cut o.cells active b d := q1.2 rfl
          have k0 : ¬ Cut o.cells active a b := fun hh => absurd (q0.1 hh) (by omega)
          simp [kids, hc, k0, k1, greenTris, h2]
        · have k2 : Cut o.cells active d a := q2.2 rfl
          have k0 : ¬ Cut o.cells active a b := fun hh => absurd (q0.1 hh) (by omega)
          have k1 : ¬ Cut o.cells active b d := fun hh => absurd (q1.1 hh) (by omega)
          simp [kids, hc, k0, k1, k2, greenTris, h2]
      · constructor
        · intro hh
          rw [hts] at hh
          simp [greenTris, h2] at hh
        · intro hh
          exfalso
          have := hh j hj
          have hc' := (F.cut e he j hj).1 ((hjj j hj).2 rfl)
          exact this hc'
    · have q := F.red e he t2
      have hch := child_red (T := T) (em := em) hel hc hvi t2 (fun f hf => (hk _).2 (q f hf))
      have hts : ts em e = quarter a b d (mid em (T.itf e.1 0)) (mid em (T.itf e.1 1)) (mid em (T.itf e.1 2)) := by
        simp [ts, hch]
      have q' := q
      rw [all3] at q'
      have k0 := c0.1 q'.1
      have k1 := c1.1 q'.2.1
      have k2 := c2.1 q'.2.2
      refine ⟨by rw [hch, hts], ?_, ?_, ?_⟩
      · rw [hts]
        intro t htm
        obtain ⟨q1, q2⟩ := quarter_spec a b d _ _ _ t htm
        refine ⟨q1, fun v hv => ?_⟩
        rcases q2 v hv with h' | h'
        · exact Or.inl (by rw [hvi]; exact h')
        · right
          simp only [mem_cons, not_mem_nil, or_false] at h'
          rcases h' with rfl | rfl | rfl
          · exact mid_mem ((hk _).2 (q 0 (by omega)))
          · exact mid_mem ((hk _).2 (q 1 (by omega)))
          · exact mid_mem ((hk _).2 (q 2 (by omega)))
      · simp [hts, kids, hc, k0, k1, k2, quarter]
      · constructor
        · intro hh; rw [hts] at hh; simp [quarter] at hh
        · intro hh
          exfalso
          have := hh 0 (by omega)
          rw [s0] at this
          exact this k0
  obtain ⟨o', em, l, s1, s2, s3, s4, s5, s6, s7⟩ := split_spec hg mean (T := T) (m := m) hs1 ht1 (ord := ord)
    (by unfold cellIds; rw [hsm.cells]; exact hord) hends ts (by
      rw [hsm.cells]
      intro em hem e he
      obtain ⟨a, b, -⟩ := hkid em hem e he
      exact ⟨a, b⟩)
  have s4' := s4
  obtain ⟨v1, v2, v3, ⟨cs, c1, c2, c3⟩, v5, v6, v7⟩ := s4
  rw [hsm.cells] at s2 c1
  have hk := hkey em s3
  have hkid := hkid em s3
  obtain ⟨n1, n2⟩ := splits_new s4'
  rw [hsm.verts] at n2
  have hcut : ∀ e ∈ o.cells, ∀ f, f < 3 → Cut o.cells active (side e.2 f).1 (side e.2 f).2 → T.itf e.1 f ∈ em.map Prod.fst :=
    fun e he f hf hc => (hk _).2 ((F.cut e he f hf).2 hc)
  have hnewid : ∀ c ∈ cs, has o.cells c.1 = false := by
    intro c hc
    have := c2 c hc
    rwa [hsm.cells] at this
  have hmemcs : ∀ c ∈ cs, ∃ e ∈ o.cells, ∃ t ∈ ts em e, c.2 = tri e.2.pid t := by
    intro c hc
    have : c.2 ∈ cs.map Prod.snd := mem_map_of_mem hc
    rw [c3] at this
    obtain ⟨e, he, hx⟩ := mem_flatMap.1 this
    obtain ⟨t, ht, hx⟩ := mem_map.1 hx
    exact ⟨e, s2.mem_iff.1 he, t, ht, hx.symm⟩
  refine ⟨o', fun id f => mid em (T.itf id f), ⟨m, r1, s1⟩, ⟨?_, ?_, ?_, ?_, ?_, ?_, ?_, ?_, ?_⟩, ⟨?_, v2, v3, ?_, ?_, s7⟩, s5, s6, ?_⟩
  · refine ⟨_, by rw [v1, hsm.verts], ?_⟩
    intro v hv
    obtain ⟨e, he, rfl⟩ := mem_map.1 hv
    have hi : e.1 ∈ m.edges := (hk _).1 (mem_map_of_mem he)
    obtain ⟨e', he', f, hf, hi'⟩ := F.edges _ hi
    refine ⟨e', he', f, hf, ?_, ?_⟩
    · rw [← F.cut e' he' f hf, ← hi']; exact hi
    · have hkk : Ok em := by
        unfold Ok
        rw [s3]; exact ordered_nodup F.nodup
      show e.2 = mid em (T.itf e'.1 f)
      unfold mid
      rw [← hi', get_of_mem hkk he]
      rfl
  · intro e he f hf hc
    exact n2 _ (mid_mem (hcut e he f hf hc))
  · intro e he f hf hc pa pb hpa hpb
    rw [splits_at s4' (hcut e he f hf hc)]
    congr 1
    apply mean_pts hm (hw.ends e.1 e.2 f (get_of_mem h.surf.cells he) hf)
    · rw [hsm.verts]; exact hpa
    · rw [hsm.verts]; exact hpb
  · intro e he f hf e' he' f' hf' hc hc'
    constructor
    · intro hh
      have hi := mid_inj n1 (hcut e he f hf hc) (hcut e' he' f' hf' hc') hh
      have p := hw.ends e.1 e.2 f (get_of_mem h.surf.cells he) hf
      have p' := hw.ends e'.1 e'.2 f' (get_of_mem h.surf.cells he') hf'
      rw [hi] at p
      exact p.symm.trans p'
    · intro hp
      show mid em (T.itf e.1 f) = mid em (T.itf e'.1 f')
      rw [hs.same e he e' he' f f' hf hf' hp]
  · rw [c1, map_append, c3]
    refine ((s2.flatMap_right fun e => (ts em e).map (tri e.2.pid)).append_left _).trans ?_
    refine (split_perm (fun e => (ts em e).isEmpty) (fun e => (ts em e).map (tri e.2.pid)) ?_).trans ?_
    · intro e _ hp
      have : ts em e = [] := by simpa using hp
      simp [this]
    · refine Perm.of_eq (congrArg List.flatten (map_congr_left fun e he => ?_))
      rw [(hkid e he).2.2.1]
      simp only [List.isEmpty_iff]
  · intro c hc hh
    rw [c1] at hc
    rcases mem_append.1 hc with hc | hc
    · exact (mem_filter.1 hc).1
    · rw [hnewid c hc] at hh; cases hh
  · intro e he
    rw [← (hkid e he).2.2.2, c1, mem_append]
    constructor
    · rintro (hh | hh)
      · simpa using (mem_filter.1 hh).2
      · have := hnewid e hh
        rw [(has_iff _ _).2 (mem_map_of_mem he)] at this
        cases this
    · intro hh
      exact Or.inl (mem_filter.2 ⟨he, by simpa using hh⟩)
  · rw [v5, hsm.pids]
  · rw [v6, hsm.names]
  · rw [v7, hsm.type]; exact h.surf.type
  · intro c hc
    rw [c1] at hc
    rcases mem_append.1 hc with hc | hc
    · exact h.surf.surf c (mem_filter.1 hc).1
    · obtain ⟨e, he, t, ht, hx⟩ := hmemcs c hc
      rw [hx]
      exact ⟨by simp [tri], by simp [tri, checkConn, ((hkid e he).2.1 t ht).1]⟩
  · intro c hc
    rw [v5, v6, hsm.pids, hsm.names]
    rw [c1] at hc
    rcases mem_append.1 hc with hc | hc
    · exact h.surf.pids c (mem_filter.1 hc).1
    · obtain ⟨e, he, t, ht, hx⟩ := hmemcs c hc
      rw [hx]
      exact h.surf.pids e he
  · intro c hc
    rw [c1] at hc
    rcases mem_append.1 hc with hc | hc
    · exact (h.tri c (mem_filter.1 hc).1).1
    · obtain ⟨e, he, t, ht, hx⟩ := hmemcs c hc
      rw [hx]; rfl

end Verif.Refine
