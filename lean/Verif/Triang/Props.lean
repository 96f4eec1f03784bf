import Verif.Triang.Model
import Verif.Mesh.TriProps
import Verif.Mesh.DumpProps
import Verif.Recon.ChooseXml
/-
C154: the block that triangulates surfaces.
-/
namespace Verif.Triang
open Verif.Field Verif.Mesh Verif.Xml
open List hiding get

variable {P : Type}

/-- a surface that can be cloned and triangulated -/
structure Target (o : Obj P) : Prop where
  surf : SurfOk o
  tree : TreeOk o
  fresh : Fresh o
  names : (o.names.map Prod.fst).Nodup
  points : o.kd.st = .sync → o.verts ≠ []

/-- the mesh `r` is the triangulation of the mesh `o`, whatever PIDs are listed: triangles only, and every piece has the PID of its cell -/
def Result (bary : Obj P → Nat → P) (o r : Obj P) : Prop :=
  r.type = 1 ∧ (∀ c ∈ r.cells, c.2.elem = .triangle) ∧ complete r = true ∧
    ∃ f g, Triangulated bary { o with pids := r.pids, names := r.names } r f g

theorem refused_surf {c : Cell} (h : SurfCell c) : refused 1 c.elem = false := by
  have := h.1
  simp only [mem_cons, not_mem_nil, or_false] at this
  rcases this with e | e | e | e <;> rw [e] <;> decide

theorem any_of_nameOf {l : List (Int × String)} {p : Int} {s : String} (h : Mesh.nameOf l p = some s) :
    l.any (fun e => e.1 == p) = true := by
  simp only [Mesh.nameOf, Option.map_eq_some_iff] at h
  obtain ⟨e, he, -⟩ := h
  rw [any_eq_true]
  exact ⟨e, mem_of_find?_eq_some he, by simpa using find?_some he⟩

/-- a `Target` has a clone that is a `Target` too -/
theorem clone_target {o : Obj P} (h : Target o) : ∃ r, clone o = some r ∧ SurfOk r ∧ TreeOk r ∧ Fresh r ∧ r.verts = o.verts ∧
    r.cells = o.cells ∧ (∀ p, p ∈ r.pids ↔ ∃ c ∈ o.cells, c.2.pid = p) ∧
    (∀ p s, Mesh.nameOf r.names p = some s ↔ (∃ c ∈ o.cells, c.2.pid = p) ∧ s = (Mesh.nameOf o.names p).getD "") := by
  have h1 := h.surf.type
  obtain ⟨r, e, t, v, c, pi, na, -, -, -, -, -, hf, ht⟩ := C60_clone_partial h.fresh (by omega) (by omega)
    (by rw [h1]; exact fun c hc => refused_surf (h.surf.surf c hc)) h.names (by omega) h.points (by omega)
  refine ⟨r, e, ⟨by rw [t, h1], by rw [v]; exact h.surf.verts, by rw [c]; exact h.surf.cells, by rw [c]; exact h.surf.surf, ?_, ?_⟩,
    ht, hf, v, c, pi, na⟩
  · intro x hx
    rw [c] at hx
    refine ⟨(h.surf.pids x hx).1, (pi _).2 ⟨x, hx, rfl⟩, ?_⟩
    exact any_of_nameOf ((na _ _).2 ⟨⟨x, hx, rfl⟩, rfl⟩)
  · have := h.surf.comp
    rw [complete, c, v]
    exact this

theorem type_triangulate {bary : Obj P → Nat → P} {o o' : Obj P} (h : triangulate bary o = some o') : o'.type = o.type := by
  unfold triangulate at h
  rw [Option.bind_eq_some_iff] at h
  obtain ⟨x, h1, h2⟩ := h
  exact (st_update h2).type.trans (st_triangulateBody bary h1).type

theorem buildPC_type (o : Obj P) : (buildPC o).type = o.type := by
  unfold buildPC
  have h : (cleanPC o).type = o.type := by unfold cleanPC; (try split) <;> rfl
  dsimp only
  split
  · exact h
  · split <;> exact h

theorem clone_type {o r : Obj P} (h0 : 1 ≤ o.type) (h : clone o = some r) : r.type = o.type := by
  unfold clone at h
  rw [Option.bind_eq_some_iff] at h
  obtain ⟨a, ha, h⟩ := h
  rw [Option.map_eq_some_iff] at h
  obtain ⟨b, hb, h⟩ := h
  have h1 : a.type = o.type := by
    unfold ctorPatch at ha
    dsimp only at ha
    by_cases h4 : (max (o.type : Int) 1).toNat > 4
    · rw [if_pos h4] at ha; cases ha
    · rw [if_neg h4] at ha
      by_cases h5 : o.cells.any (fun c => refused (max (o.type : Int) 1).toNat c.2.elem) = true
      · rw [if_pos h5] at ha; cases ha
      · rw [if_neg h5] at ha
        rw [← Option.some.inj ha]
        show (max (o.type : Int) 1).toNat = o.type
        omega
  have h2 : ∀ (l : List (Int × String)) (x : Obj P), (l.foldl (fun r e => (setPIDName r e.1 e.2).1) x).type = x.type := by
    intro l
    induction l with
    | nil => intro x; rfl
    | cons e l ih =>
      intro x
      rw [foldl_cons, ih]
      unfold setPIDName
      split <;> rfl
  have h3 : b.type = a.type := by
    have hk : ∀ x : Obj P, (if o.kd.st = .sync then buildKd x else x).type = x.type := by
      intro x
      split
      · unfold buildKd cleanKd
        split
        · rfl
        · split
          · rfl
          · (try split) <;> rfl
      · rfl
    have hs : ∀ x y : Obj P, (if o.skd.st = .sync then buildSkd x else some x) = some y → y.type = x.type := by
      intro x y hy
      split at hy
      · unfold buildSkd at hy
        split at hy
        · rw [Option.some.inj hy]
        · split at hy
          · rw [Option.some.inj hy]
          · split at hy
            · cases hy
            · split at hy
              · cases hy
              · rw [← Option.some.inj hy]
      · rw [Option.some.inj hy]
    rw [hs _ _ hb, hk, h2]
    rfl
  rw [← h, ← h1, ← h3]
  split
  · exact buildPC_type b
  · rfl

/-- a triangulation speaks of the cells and of the positions only -/
theorem triangulated_of {bary : Obj P → Nat → P} (hl : LocalTo bary) {o r r' : Obj P} {f g : Nat → Nat} (hv : r.verts = o.verts)
    (hc : r.cells = o.cells) (h : Triangulated bary r r' f g) :
    Triangulated bary { o with pids := r'.pids, names := r'.names } r' f g := by
  obtain ⟨a, b, c, d, e, k, -, -⟩ := h
  rw [hc] at a b c d e k
  rw [hv] at d e
  refine ⟨a, b, c, ?_, e, k, rfl, rfl⟩
  intro w p
  rw [d w p]
  refine or_congr Iff.rfl (exists_congr fun id => exists_congr fun x => and_congr_right fun hx => ?_)
  rw [hl r { o with pids := r'.pids, names := r'.names } id x (by rw [hc]; exact hx) hx (fun v _ => by rw [hv])]

/-- C154: a block that works on a copy succeeds on every surface; no object that existed is changed, the linked
geometry stays the same; `getGeometry` gives a new object, the triangulation of the linked geometry, whose PIDs are those in use with the
names they had. -/
theorem C154_copy (bary : Obj P → Nat → P) (hl : LocalTo bary) {s : State P} {t : Nat} {o : Obj P} (ht : s.target = some t)
    (ho : s.mem[t]? = some o) (hw : s.work = false) (hok : Target o) :
    ∃ (s' : State P) (r : Obj P), s.execute bary = (s', true) ∧ (∀ (i : Nat) x, s.mem[i]? = some x → s'.mem[i]? = some x) ∧ s'.target = some t ∧ s'.work = false ∧
      s'.geometry = some s.mem.length ∧ s'.mem[s.mem.length]? = some r ∧ s'.mem.length = s.mem.length + 1 ∧
      Result bary o r ∧ (∀ p, p ∈ r.pids ↔ ∃ c ∈ o.cells, c.2.pid = p) ∧
      (∀ p n, Mesh.nameOf r.names p = some n ↔ (∃ c ∈ o.cells, c.2.pid = p) ∧ n = (Mesh.nameOf o.names p).getD "") := by
  obtain ⟨r, e, hs, htr, hf, hv, hc, hp, hn⟩ := clone_target hok
  obtain ⟨r', f, g, e', h1, h2, h3⟩ := C39_triangulate bary hl hs htr
  refine ⟨{ s with mem := s.mem ++ [r'], patch := some s.mem.length }, r', ?_, ?_, ht, hw, ?_, by simp, by simp, ?_, ?_, ?_⟩
  · simp [State.execute, ht, ho, hw, e, e']
  · intro i x hx
    rw [getElem?_append_left (by grind)]
    exact hx
  · simp [State.geometry, hw]
  · exact ⟨by rw [type_triangulate e', hs.type], h2, h3, f, g, triangulated_of hl hv hc h1⟩
  · rw [h1.pids]; exact hp
  · rw [h1.names]; exact hn

/-- C154: a block that works on the target replaces it by its triangulation, changes no other object and gives the target. -/
theorem C154_target (bary : Obj P → Nat → P) (hl : LocalTo bary) {s : State P} {t : Nat} {o : Obj P} (ht : s.target = some t)
    (ho : s.mem[t]? = some o) (hw : s.work = true) (hs : SurfOk o) (htr : TreeOk o) :
    ∃ (s' : State P) (r : Obj P), s.execute bary = (s', true) ∧ (∀ (i : Nat), i ≠ t → s'.mem[i]? = s.mem[i]?) ∧ s'.target = some t ∧ s'.work = true ∧
      s'.geometry = some t ∧ s'.mem[t]? = some r ∧ Result bary o r ∧ r.pids = o.pids ∧ r.names = o.names := by
  obtain ⟨r', f, g, e', h1, h2, h3⟩ := C39_triangulate bary hl hs htr
  refine ⟨{ s with mem := s.mem.set t r' }, r', by simp [State.execute, ht, ho, hw, e'], ?_, ht, hw, by simp [State.geometry, hw, ht],
    ?_, ⟨by rw [type_triangulate e', hs.type], h2, h3, f, g, triangulated_of hl rfl rfl h1⟩, h1.pids, h1.names⟩
  · intro i hi
    simp only [getElem?_set]
    rw [if_neg (Ne.symm hi)]
  · have : t < s.mem.length := by grind
    simp [this]

/-- C154: without a geometry the block stops and nothing changes; with a geometry that is no surface it stops and no object that existed
is changed. -/
theorem C154_refused (bary : Obj P → Nat → P) (s : State P) :
    (s.target = none → s.execute bary = (s, false)) ∧
    (∀ t o, s.target = some t → s.mem[t]? = some o → o.type ≠ 1 → 1 ≤ o.type → (s.execute bary).2 = false ∧
      ∀ (i : Nat) x, s.mem[i]? = some x → (s.execute bary).1.mem[i]? = some x) := by
  refine ⟨fun h => by simp [State.execute, h], ?_⟩
  intro t o ht ho h1 h0
  have e := C39_surfaces_only bary o h1
  cases hw : s.work with
  | true => simp [State.execute, ht, ho, hw, e]
  | false =>
    cases hc : clone o with
    | none => simp [State.execute, ht, ho, hw, hc]
    | some r =>
      have hr : r.type = o.type := clone_type h0 hc
      have e' := C39_surfaces_only bary r (by rw [hr]; exact h1)
      refine ⟨by simp [State.execute, ht, ho, hw, hc, e'], ?_⟩
      intro i x hx
      simp only [State.execute, ht, ho, hw, hc, e', Bool.false_eq_true, if_false]
      rw [getElem?_append_left (by grind)]
      exact hx

/-- C154: no reference to nothing replaces the linked geometry; the last one given counts; the flag too -/
theorem C154_settings (s : State P) (i : Nat) (b : Bool) : s.setGeometry none = s ∧ (s.setGeometry (some i)).target = some i ∧
    (s.setGeometry (some i)).patch = s.patch ∧ (s.setGeometry (some i)).work = s.work ∧ (s.setWork b).work = b ∧
    (s.setWork b).target = s.target ∧ (s.setWork b).patch = s.patch ∧ (State.new s.mem).work = false ∧
    (State.new s.mem).geometry = none := ⟨rfl, rfl, rfl, rfl, rfl, rfl, rfl, rfl, rfl⟩

/-- C154: the settings read from what was written are those written -/
theorem C154_round_trip (s s' : State P) (x : Section) : (s'.absorb (s.flush x)).work = s.work ∧
    (s'.absorb (s.flush x)).target = s'.target ∧ (s'.absorb (s.flush x)).patch = s'.patch ∧ (s'.absorb (s.flush x)).mem = s'.mem := by
  refine ⟨?_, ?_, ?_, ?_⟩ <;>
    simp only [State.absorb, State.flush, Section.set, if_pos, State.setWork]
  rw [if_neg (Recon.trim_toText_ne _), Recon.readBool_toText]
  cases s.work <;> rfl

/-- C154 fails for what a refused execution leaves behind: after the exception a block that works on a copy gives, from `getGeometry`, an
untouched copy of an object that is no surface. -/
theorem C154_leftover_fails : ∃ (s : State Int) (o : Obj Int), s.target = some 0 ∧ s.mem = [o] ∧ o.type = 3 ∧ s.geometry = none ∧
    ∀ bary, (s.execute bary).2 = false ∧ (s.execute bary).1.geometry = some 1 ∧
      ((s.execute bary).1.mem[1]?.map fun r => (r.type, r.verts, r.cells)) = some (o.type, o.verts, o.cells) := by
  let o : Obj Int := { demo with type := 3, cells := [(4, ⟨.vertex, [1], 0, true⟩)], tree := false, pids := [0], names := [(0, "")] }
  refine ⟨⟨[o], some 0, none, false⟩, o, rfl, rfl, rfl, rfl, fun bary => ?_⟩
  cases hc : clone o with
  | none => exact absurd hc (by decide)
  | some r =>
    have hr : r.type = 3 := clone_type (o := o) (by decide) hc
    have hm : (r.type, r.verts, r.cells) = (o.type, o.verts, o.cells) := by
      have : (clone o).map (fun r => (r.type, r.verts, r.cells)) = some (o.type, o.verts, o.cells) := by decide
      rw [hc] at this
      exact Option.some.inj this
    have e := C39_surfaces_only bary r (by omega)
    refine ⟨by simp [State.execute, hc, e], by simp [State.execute, hc, e, State.geometry], ?_⟩
    simp only [State.execute, getElem?_cons_zero, hc, e, Bool.false_eq_true, if_false]
    simpa using hm

/-- a mixed surface -/
def demoMix : Obj Int := { demoSurf with info := ⟨.sync, some [3, 8, 5]⟩ }

/-- a block that works on a copy of it -/
def demoBlock : State Int := (State.new [demo, demoMix]).setGeometry (some 1)

example : ∃ o, demoBlock.target = some 1 ∧ demoBlock.mem[1]? = some o ∧ demoBlock.work = false ∧ Target o := by
  refine ⟨demoMix, rfl, rfl, rfl, ⟨⟨by decide, by unfold Ok; decide, by unfold Ok; decide, ?_, ?_, by decide⟩, ⟨by decide, by decide⟩, ?_,
    by decide, by decide⟩⟩
  · intro c hc
    simp only [demoMix, demoSurf, mem_cons, not_mem_nil, or_false] at hc
    rcases hc with rfl | rfl | rfl <;> exact ⟨by decide, by decide⟩
  · intro c hc
    simp only [demoMix, demoSurf, mem_cons, not_mem_nil, or_false] at hc
    rcases hc with rfl | rfl | rfl <;> exact ⟨by unfold InRange; decide, by decide, by decide⟩
  · constructor <;> decide

end Verif.Triang
