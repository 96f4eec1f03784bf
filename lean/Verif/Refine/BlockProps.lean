import Verif.Refine.Block
/-
C153: the block `RefineGeometry`.
-/
namespace Verif.Refine
open Verif.Field Verif.Mesh Verif.Shape Verif.Xml Verif.Create
open List hiding get get_of_mem

theorem allTriangles_iff {P : Type} (o : Obj P) : allTriangles o = true ↔ ∀ c ∈ o.cells, c.2.elem = .triangle := by
  have : ∀ (l : Data Cell) (b : Bool), l.foldl (fun check c => check && c.2.elem == .triangle) b = true ↔
      b = true ∧ ∀ c ∈ l, c.2.elem = .triangle := by
    intro l
    induction l with
    | nil => intro b; simp
    | cons c l ih => intro b; rw [foldl_cons, ih]; simp; grind
  unfold allTriangles
  rw [this]
  simp

/-- what the external parts have to satisfy: new ids are not in use; centroids depend on the cell; the mean of two points
does not depend on their order; interfaces as bitpit builds them; the hash table has every cell once -/
structure Env.Ok (E : Env) : Prop where
  gen : GenOk E.g
  bary : LocalTo E.bary
  mean : Symm E.mean
  topo : ∀ o, TriMesh o → Wired (E.topo o) o.cells
  ord : ∀ o, (E.ord o).Perm (cellIds o)

theorem redGreens_det {P : Type} {g : Gen P} {mean : List P → P} {T : Obj P → Topo} {ord : Obj P → List Nat} {k : Nat} {o a b : Obj P}
    (ha : RedGreens g mean T ord k o a) (hb : RedGreens g mean T ord k o b) : a = b := by
  induction ha with
  | zero => cases hb; rfl
  | succ r _ ih => cases hb with
    | succ r' hb => rw [C150_unique r' r] at hb; exact ih hb

/-- C153: an execution has one outcome. -/
theorem C153_unique {E : Env} {b : Block} {x : Option (Obj V3)} {r r' : Option (Option (Obj V3))} (h : Executes E b x r)
    (h' : Executes E b x r') : r = r' := by
  cases h with
  | empty => cases h'; rfl
  | type h1 => cases h' with
    | type => rfl
    | shape h => exact absurd h h1
    | ternary h => exact absurd h h1
    | redgreen h => exact absurd h h1
  | shape h1 h2 h3 => cases h' with
    | type h => exact absurd h1 h
    | shape => rfl
    | ternary _ h => rw [h2] at h; cases h
    | redgreen _ _ h => rw [h3] at h; cases h
  | ternary h1 h2 => cases h' with
    | type h => exact absurd h1 h
    | shape _ h => rw [h2] at h; cases h
    | ternary => rfl
    | redgreen _ h => rw [h2] at h; cases h
  | redgreen h1 h2 h3 h4 => cases h' with
    | type h => exact absurd h1 h
    | shape _ _ h => rw [h3] at h; cases h
    | ternary _ h => rw [h2] at h; cases h
    | redgreen _ _ _ h => rw [redGreens_det h4 h]

/-- C153: without a geometry nothing happens; a geometry that is not a surface raises an exception; a red-green
refinement of a surface with a cell that is not a triangle leaves it as it is, without smoothing either. -/
theorem C153_refused {E : Env} {b : Block} {r : Option (Option (Obj V3))} :
    (Executes E b none r ↔ r = some none) ∧
    (∀ o, o.type ≠ 1 → (Executes E b (some o) r ↔ r = none)) ∧
    (∀ o, o.type = 1 → b.kind = .redgreen → (∃ c ∈ o.cells, c.2.elem ≠ .triangle) →
      (Executes E b (some o) r ↔ r = some (some o))) := by
  refine ⟨⟨fun h => C153_unique h .empty, fun h => h ▸ .empty⟩, fun o h1 => ⟨fun h => C153_unique h (.type h1), fun h => h ▸ .type h1⟩, ?_⟩
  rintro o h1 h2 ⟨c, hc, hne⟩
  have hf : allTriangles o = false := by
    rw [Bool.eq_false_iff]
    intro h
    exact hne ((allTriangles_iff o).1 h c hc)
  exact ⟨fun h => C153_unique h (.shape h1 h2 hf), fun h => h ▸ .shape h1 h2 hf⟩

theorem finished_spec (b : Block) {o : Obj V3} (h : SurfOk o) (ht : TreeOk o) :
    ∃ o', finished b o = some o' ∧ Times (Relaxed (6 / 10)) b.steps.toNat o o' := by
  unfold finished
  by_cases hs : b.steps > 0
  · rw [if_pos hs]
    obtain ⟨n, hn⟩ : ∃ n, b.steps.toNat = n + 1 := ⟨b.steps.toNat - 1, by omega⟩
    obtain ⟨o', h1, _, h2⟩ := C152_smoothing ⟨h.type, h.comp, ht⟩ n
    rw [hn]
    exact ⟨o', h1, h2⟩
  · rw [if_neg hs]
    have : b.steps.toNat = 0 := by omega
    rw [this]
    exact ⟨o, rfl, .zero o⟩

/-- C153: the red-green execution on a surface of triangles: all its triangles are refined as many times as set, then the
smoothing steps that are set are done; nothing else can happen. -/
theorem C153_redgreen {E : Env} (hE : E.Ok) {b : Block} (hb : b.kind = .redgreen) {o : Obj V3} (h : TriMesh o) (ht : TreeOk o) :
    ∃ o1 o', RedGreens E.g E.mean E.topo E.ord b.refinements.toNat o o1 ∧ Times (Relaxed (6 / 10)) b.steps.toNat o1 o' ∧
      (∀ r, Executes E b (some o) r ↔ r = some (some o')) ∧
      o'.cells.length = 4 ^ b.refinements.toNat * o.cells.length ∧ o'.pids = o.pids ∧
      (b.steps ≤ 0 → ∃ vs, o'.verts = o.verts ++ vs) := by
  obtain ⟨o1, h1, h2, h3, h4, h5, vs, h6⟩ := C150_size hE.gen hE.mean hE.topo hE.ord b.refinements.toNat h ht
  obtain ⟨o', f1, f2⟩ := finished_spec b h3.surf h4
  have hx : Executes E b (some o) (some (some o')) := by
    have := Executes.redgreen h.surf.type hb ((allTriangles_iff o).2 fun c hc => (h.tri c hc).1) h1
    rw [f1] at this
    exact this
  obtain ⟨m1, m2, m3, m4⟩ := C152_mesh f2
  refine ⟨o1, o', h1, f2, fun r => ⟨fun hr => C153_unique hr hx, fun hr => hr ▸ hx⟩, by rw [m1, h2], m2.trans h5, ?_⟩
  intro hs
  have : b.steps.toNat = 0 := by omega
  rw [this] at f2
  cases f2
  exact ⟨vs, h6⟩

/-- C153: the ternary execution on a surface -/
theorem C153_ternary {E : Env} (hE : E.Ok) {b : Block} (hb : b.kind = .ternary) {o : Obj V3} (h : SurfOk o) (ht : TreeOk o) :
    ∃ o1 o', ternaries E.g E.bary b.refinements.toNat o = some o1 ∧ Times (Relaxed (6 / 10)) b.steps.toNat o1 o' ∧
      (∀ r, Executes E b (some o) r ↔ r = some (some o')) ∧
      (∀ k : Nat, b.refinements = k + 1 → o'.cells.length = 3 ^ k * (o.cells.map fun e => (vertexIds e.2).length).sum) := by
  have key : ∃ o1, ternaries E.g E.bary b.refinements.toNat o = some o1 ∧ SurfOk o1 ∧ TreeOk o1 ∧
      (∀ k : Nat, b.refinements = k + 1 → o1.cells.length = 3 ^ k * (o.cells.map fun e => (vertexIds e.2).length).sum) := by
    by_cases hz : b.refinements.toNat = 0
    · refine ⟨o, by rw [hz]; rfl, h, ht, ?_⟩
      intro k hk
      omega
    · obtain ⟨n, hn⟩ : ∃ n, b.refinements.toNat = n + 1 := ⟨b.refinements.toNat - 1, by omega⟩
      obtain ⟨o1, a1, a2, _, a4, a5, _⟩ := C149_size hE.gen hE.bary n h ht
      refine ⟨o1, by rw [hn]; exact a1, a4, a5, ?_⟩
      intro k hk
      have : k = n := by omega
      rw [this]; exact a2
  obtain ⟨o1, a1, a2, a3, a4⟩ := key
  obtain ⟨o', f1, f2⟩ := finished_spec b a2 a3
  have hx : Executes E b (some o) (some (some o')) := by
    have := Executes.ternary (E := E) h.type hb
    rw [a1] at this
    simp only [Option.bind_some, f1] at this
    exact this
  refine ⟨o1, o', a1, f2, fun r => ⟨fun hr => C153_unique hr hx, fun hr => hr ▸ hx⟩, ?_⟩
  intro k hk
  rw [(C152_mesh f2).1]
  exact a4 k hk

/-- C153: as built, the block refines once by the red-green method and does not smooth; methods other than 0 and 1 are
refused, negative numbers are 0; clearing keeps the settings. -/
theorem C153_settings (b : Block) (n : Int) :
    Block.fresh = ⟨.redgreen, 1, 0⟩ ∧ b.setType 0 = some { b with kind := .ternary } ∧
    b.setType 1 = some { b with kind := .redgreen } ∧ (n ≠ 0 → n ≠ 1 → b.setType n = none) ∧
    (0 ≤ n → b.setRefineSteps n = { b with refinements := n } ∧ b.setSmoothingSteps n = { b with steps := n }) ∧
    (n ≤ 0 → b.setRefineSteps n = { b with refinements := 0 } ∧ b.setSmoothingSteps n = { b with steps := 0 }) ∧
    b.clear = b := by
  refine ⟨rfl, by simp [Block.setType], by simp [Block.setType], ?_, ?_, ?_, rfl⟩
  · intro h0 h1; simp [Block.setType, h0, h1]
  · intro h
    have : max 0 n = n := by omega
    simp [Block.setRefineSteps, Block.setSmoothingSteps, this]
  · intro h
    have : max 0 n = 0 := by omega
    simp [Block.setRefineSteps, Block.setSmoothingSteps, this]

theorem intOption_intText {n : Int} (h1 : INT_MIN ≤ n) (h2 : n ≤ INT_MAX) (d : Int) : intOption d (intText n) = n := by
  obtain ⟨e1, e2⟩ := readSigned_intText h1 h2
  unfold intOption
  rw [e1, if_neg (intText_ne n), e2]

/-- C153: the settings written are read back by any block. -/
theorem C153_round_trip (b d : Block) (x : Section) (h1 : 0 ≤ b.refinements ∧ b.refinements ≤ INT_MAX)
    (h2 : 0 ≤ b.steps ∧ b.steps ≤ INT_MAX) : d.absorb (b.flush x) = some b := by
  have e1 : b.flush x "RefineType" = some (intText (if b.kind = .ternary then 0 else 1)) := by simp [Block.flush, Section.set]
  have e2 : b.flush x "RefineSteps" = some (intText b.refinements) := by simp [Block.flush, Section.set]
  have e3 : b.flush x "SmoothingSteps" = some (intText b.steps) := by simp [Block.flush, Section.set]
  have i1 : ∀ d : Int, intOption d (intText b.refinements) = b.refinements :=
    intOption_intText (by unfold INT_MIN; omega) h1.2
  have i2 : ∀ d : Int, intOption d (intText b.steps) = b.steps :=
    intOption_intText (by unfold INT_MIN; omega) h2.2
  have m1 : max 0 b.refinements = b.refinements := by omega
  have m2 : max 0 b.steps = b.steps := by omega
  unfold Block.absorb
  simp only [e1, e2, e3, i1, i2, Block.setRefineSteps, Block.setSmoothingSteps, m1, m2]
  cases hk : b.kind with
  | ternary =>
    rw [if_pos rfl, intOption_intText (by decide) (by decide)]
    cases b; cases hk; simp [Block.setType]
  | redgreen =>
    rw [if_neg (by decide), intOption_intText (by decide) (by decide)]
    cases b; cases hk; simp [Block.setType]

/-- C153: options that are missing leave their settings as they were; each decides its own setting only. -/
theorem C153_absorb {x : Section} {b b' : Block} (h : b.absorb x = some b') :
    (x "RefineType" = none → b'.kind = b.kind) ∧
    (∀ t, x "RefineType" = some t → intOption 1 t = 0 ∧ b'.kind = .ternary ∨ intOption 1 t = 1 ∧ b'.kind = .redgreen) ∧
    (x "RefineSteps" = none → b'.refinements = b.refinements) ∧
    (∀ t, x "RefineSteps" = some t → b'.refinements = max 0 (intOption 0 t)) ∧
    (x "SmoothingSteps" = none → b'.steps = b.steps) ∧
    (∀ t, x "SmoothingSteps" = some t → b'.steps = max 0 (intOption 0 t)) := by
  unfold Block.absorb at h
  rw [Option.map_eq_some_iff] at h
  obtain ⟨b1, h1, h2⟩ := h
  have k1 : b1.refinements = b.refinements ∧ b1.steps = b.steps ∧ (x "RefineType" = none → b1.kind = b.kind) ∧
      (∀ t, x "RefineType" = some t → intOption 1 t = 0 ∧ b1.kind = .ternary ∨ intOption 1 t = 1 ∧ b1.kind = .redgreen) := by
    cases hx : x "RefineType" with
    | none => rw [hx] at h1; cases h1; exact ⟨rfl, rfl, fun _ => rfl, fun t ht => by cases ht⟩
    | some t =>
      rw [hx] at h1
      simp only [Block.setType] at h1
      by_cases hc : intOption 1 t ≠ 0 ∧ intOption 1 t ≠ 1
      · rw [if_pos hc] at h1; cases h1
      · rw [if_neg hc] at h1
        cases h1
        refine ⟨rfl, rfl, fun hh => (by cases hh), ?_⟩
        intro t' ht'
        cases ht'
        by_cases h0 : intOption 1 t = 0
        · left; simp [h0]
        · right
          refine ⟨by omega, by simp [h0]⟩
  obtain ⟨k1, k2, k3, k4⟩ := k1
  subst h2
  cases hr : x "RefineSteps" <;> cases hs : x "SmoothingSteps" <;>
    simp [Block.setRefineSteps, Block.setSmoothingSteps, k1, k2] <;> exact ⟨k3, k4⟩

/-- C153: a text for the method that is not a number selects the ternary method, an empty one the red-green method. -/
theorem C153_text_fails (b : Block) :
    b.absorb (fun k => if k = "RefineType" then some "redgreen".toList else none) = some { b with kind := .ternary } ∧
    b.absorb (fun k => if k = "RefineType" then some [] else none) = some { b with kind := .redgreen } := by
  constructor
  · have : intOption 1 "redgreen".toList = 0 := by decide
    simp only [Block.absorb, if_pos, this]
    simp [Block.setType]
  · have : intOption 1 [] = 1 := by decide
    simp only [Block.absorb, if_pos, this]
    simp [Block.setType]

/-! The external parts can be as required -/

/-- the ends of a side, the smaller id first -/
def sideKey (c : Cell) (f : Nat) : Nat × Nat :=
  (min (c.conn.getD f 0) (c.conn.getD ((f + 1) % 3) 0), max (c.conn.getD f 0) (c.conn.getD ((f + 1) % 3) 0))

/-- the sides of all cells, one after the other -/
def sideKeys (cells : Data Cell) : List (Nat × Nat) := cells.flatMap fun e => [sideKey e.2 0, sideKey e.2 1, sideKey e.2 2]

/-- adjacencies and interfaces with one interface for each side -/
def sideTopo (cells : Data Cell) : Topo where
  nbrs id f := match get cells id with
    | none => []
    | some c => (cells.filter fun e => e.1 != id && [sideKey e.2 0, sideKey e.2 1, sideKey e.2 2].contains (sideKey c f)).map Prod.fst
  itf id f := match get cells id with
    | none => 0
    | some c => (sideKeys cells).idxOf (sideKey c f)
  owner i := ((cells.find? fun e => [sideKey e.2 0, sideKey e.2 1, sideKey e.2 2].contains ((sideKeys cells).getD i (0, 0))).map Prod.fst).getD 0
  ownerFace i := i % 3
  neighFace i := i % 3
  ends i := [((sideKeys cells).getD i (0, 0)).1, ((sideKeys cells).getD i (0, 0)).2]

theorem sideTopo_wired (cells : Data Cell) : Wired (sideTopo cells) cells := by
  constructor
  · intro id c f hc _ n hn
    simp only [sideTopo, hc] at hn
    obtain ⟨e, he, rfl⟩ := mem_map.1 hn
    exact (has_iff _ _).2 (mem_map_of_mem (mem_filter.1 he).1)
  · intro id c f hc hf
    have hm : sideKey c f ∈ sideKeys cells := by
      refine mem_flatMap.2 ⟨(id, c), get_some_mem hc, ?_⟩
      rcases face_cases hf with rfl | rfl | rfl <;> simp
    have hi := idxOf_lt_length_iff.2 hm
    have hk : (sideKeys cells).getD ((sideKeys cells).idxOf (sideKey c f)) (0, 0) = sideKey c f := by
      rw [getD_eq_getElem?_getD, getElem?_eq_getElem hi, getElem_idxOf hi]
      rfl
    simp only [sideTopo, hc, hk]
    simp only [sideKey]
    generalize c.conn.getD f 0 = a
    generalize c.conn.getD ((f + 1) % 3) 0 = b
    rcases Nat.le_total a b with h | h
    · rw [Nat.min_eq_left h, Nat.max_eq_right h]
    · rw [Nat.min_eq_right h, Nat.max_eq_left h]; exact .swap _ _ _

/-- ids above those in use, centroids as means of the vertices, one interface for each side -/
noncomputable def demoEnv : Env where
  g := { vert := fun vs => (vs.map Prod.fst).foldl max 0 + 1, cell := fun _ cs => (cs.map Prod.fst).foldl max 0 + 1 }
  bary o id := match get o.cells id with
    | none => ⟨0, 0, 0⟩
    | some c => mean3 ((vertexIds c).map fun v => coords o v)
  mean := mean3
  topo o := sideTopo o.cells
  ord o := cellIds o

theorem demoEnv_ok : demoEnv.Ok := by
  refine ⟨⟨fun vs => above vs, fun _ cs => above cs⟩, ?_, fun a b => mean3_perm (.swap _ _ _), fun o _ => sideTopo_wired o.cells,
    fun o => .refl _⟩
  intro o1 o2 id c h1 h2 h
  simp only [demoEnv, h1, h2]
  have : (vertexIds c).map (fun v => coords o1 v) = (vertexIds c).map fun v => coords o2 v :=
    map_congr_left (fun v hv => by simp only [coords, h v hv])
  rw [this]

/-- the hypotheses are met: one triangle, refined and smoothed once -/
example : demoEnv.Ok ∧ TriMesh demoOne ∧ TreeOk demoOne ∧
    ∃ o', Executes demoEnv ⟨.redgreen, 1, 1⟩ (some demoOne) (some (some o')) ∧ o'.cells.length = 4 := by
  have ht : TriMesh demoOne := ⟨demoOne_ok.1, by
    intro c hc
    have : c = (0, ⟨.triangle, [0, 1, 2], 0, true⟩) := by simpa [demoOne] using hc
    subst this
    exact ⟨rfl, by decide⟩⟩
  obtain ⟨o1, o', _, _, h3, h4, _⟩ := C153_redgreen demoEnv_ok (b := ⟨.redgreen, 1, 1⟩) rfl ht demoOne_ok.2
  exact ⟨demoEnv_ok, ht, demoOne_ok.2, o', (h3 _).2 rfl, h4⟩

example : ∃ o', Executes demoEnv ⟨.ternary, 2, 0⟩ (some demoOne) (some (some o')) ∧ o'.cells.length = 9 := by
  obtain ⟨o1, o', _, _, h3, h4⟩ := C153_ternary demoEnv_ok (b := ⟨.ternary, 2, 0⟩) rfl demoOne_ok.1 demoOne_ok.2
  refine ⟨o', (h3 _).2 rfl, ?_⟩
  have := h4 1 rfl
  simpa [demoOne, vertexIds] using this

end Verif.Refine
