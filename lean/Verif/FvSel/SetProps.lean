import Verif.FvSel.Props

/-! # Settings of the selections of bulk and boundary -/

namespace Verif.FvSel

open Verif.Field Verif.Mesh Verif.Select
open List hiding get

variable {P σ ρ : Type}

/-- the calls that configure a block -/
inductive Call
  | geometry (g : Option Nat)
  | boundary (g : Option Nat)
  | dual (b : Bool)
  | selection (e : Option Nat)
  | copy

def Call.run (w : World P σ) (s : Fv P) : Call → Fv P
  | .geometry g => s.setGeometry w g
  | .boundary g => s.setBoundary w g
  | .dual b => s.setDual b
  | .selection e => s.setSelection e
  | .copy => s.copy

/-- the last mesh among the arguments that has the type -/
def lastOf (w : World P σ) (t : Nat) : List (Option Nat) → Option Nat
  | [] => none
  | g :: gs =>
    match lastOf w t gs with
    | some i => some i
    | none => match g with
      | some i => if (w.obj i).type = t then some i else none
      | none => none

/-- arguments of the calls that give the bulk mesh -/
def bulks : List Call → List (Option Nat)
  | [] => []
  | .geometry g :: cs => g :: bulks cs
  | _ :: cs => bulks cs

/-- arguments of the calls that give the boundary mesh -/
def bounds : List Call → List (Option Nat)
  | [] => []
  | .boundary g :: cs => g :: bounds cs
  | _ :: cs => bounds cs

def orElse (a b : Option Nat) : Option Nat :=
  match a with
  | some i => some i
  | none => b

theorem lastOf_cons (w : World P σ) (t : Nat) (g : Option Nat) (gs : List (Option Nat)) :
    lastOf w t (g :: gs) = orElse (lastOf w t gs) (lastOf w t [g]) := by
  simp only [lastOf, orElse]

/-- **C183.** A block works on volumes bounded by surfaces, or on surfaces bounded by curves, as its topology says (1, or less, and 2, or more).  Whatever calls
configure it, or copy it, the bulk and the boundary mesh are the last ones given that have the right type, and other meshes change nothing. -/
theorem C183_types (w : World P σ) (topo : Int) (cs : List Call) :
    (cs.foldl (Call.run w) (Fv.new topo)).geo = lastOf w (if topo ≤ 1 then 2 else 1) (bulks cs) ∧
      (cs.foldl (Call.run w) (Fv.new topo)).bnd = lastOf w (if topo ≤ 1 then 1 else 4) (bounds cs) := by
  have key : ∀ (cs : List Call) (s : Fv P), (s.topo = if topo ≤ 1 then 1 else 2) →
      (cs.foldl (Call.run w) s).geo = orElse (lastOf w (if topo ≤ 1 then 2 else 1) (bulks cs)) s.geo ∧
      (cs.foldl (Call.run w) s).bnd = orElse (lastOf w (if topo ≤ 1 then 1 else 4) (bounds cs)) s.bnd := by
    intro cs
    induction cs with
    | nil => exact fun s _ => ⟨rfl, rfl⟩
    | cons c cs ih =>
      intro s hs
      rw [foldl_cons]
      cases c with
      | geometry g =>
        have ht : (s.setGeometry w g).topo = s.topo := by unfold Fv.setGeometry; repeat' (first | rfl | split)
        have hb : (s.setGeometry w g).bnd = s.bnd := by unfold Fv.setGeometry; repeat' (first | rfl | split)
        have hg : (s.setGeometry w g).geo = orElse (lastOf w (if topo ≤ 1 then 2 else 1) [g]) s.geo := by
          unfold Fv.setGeometry
          cases g with
          | none => rfl
          | some i =>
            simp only [lastOf, orElse, hs]
            by_cases h : topo ≤ 1 <;> simp only [h, if_true, if_false] <;>
              [by_cases h2 : (w.obj i).type = 2; by_cases h2 : (w.obj i).type = 1] <;> simp [h2]
        obtain ⟨h1, h2⟩ := ih (s.setGeometry w g) (ht.trans hs)
        refine ⟨?_, by rw [← hb]; exact h2⟩
        show (foldl (Call.run w) (s.setGeometry w g) cs).geo = orElse (lastOf w _ (g :: bulks cs)) s.geo
        rw [h1, lastOf_cons, hg]
        cases lastOf w _ (bulks cs) <;> rfl
      | boundary g =>
        have ht : (s.setBoundary w g).topo = s.topo := by unfold Fv.setBoundary; repeat' (first | rfl | split)
        have hb : (s.setBoundary w g).geo = s.geo := by unfold Fv.setBoundary; repeat' (first | rfl | split)
        have hg : (s.setBoundary w g).bnd = orElse (lastOf w (if topo ≤ 1 then 1 else 4) [g]) s.bnd := by
          unfold Fv.setBoundary
          cases g with
          | none => rfl
          | some i =>
            simp only [lastOf, orElse, hs]
            by_cases h : topo ≤ 1 <;> simp only [h, if_true, if_false] <;>
              [by_cases h2 : (w.obj i).type = 1; by_cases h2 : (w.obj i).type = 4] <;> simp [h2]
        obtain ⟨h1, h2⟩ := ih (s.setBoundary w g) (ht.trans hs)
        refine ⟨by rw [← hb]; exact h1, ?_⟩
        show (foldl (Call.run w) (s.setBoundary w g) cs).bnd = orElse (lastOf w _ (g :: bounds cs)) s.bnd
        rw [h2, lastOf_cons, hg]
        cases lastOf w _ (bounds cs) <;> rfl
      | dual b => exact ih (s.setDual b) hs
      | selection e =>
        cases e with
        | none => exact ih s hs
        | some i => exact ih { s with engine := some i } hs
      | copy => exact ih s.copy hs
  have hn : (Fv.new topo : Fv P).topo = if topo ≤ 1 then 1 else 2 := by
    show (min 2 (max 1 topo)).toNat = _
    split <;> omega
  obtain ⟨h1, h2⟩ := key cs (Fv.new topo) hn
  refine ⟨h1.trans ?_, h2.trans ?_⟩
  · cases lastOf w (if topo ≤ 1 then 2 else 1) (bulks cs) <;> rfl
  · cases lastOf w (if topo ≤ 1 then 1 else 4) (bounds cs) <;> rfl

example : ([Call.geometry (some 1), .geometry (some 0), .boundary (some 0), .copy, .boundary (some 1)].foldl (Call.run (world pair pairEdges [] false)) (Fv.new 7)).geo =
    some 0 := by decide
example : ([Call.geometry (some 0), .boundary (some 0), .copy, .boundary (some 1)].foldl (Call.run (world pair pairEdges [] false)) (Fv.new 7)).bnd =
    some 1 := by decide
example : ([Call.geometry (some 0), .boundary (some 1)].foldl (Call.run (world pair pairEdges [] false)) (Fv.new 1)).geo = none := by decide

/-- **C183.** The option of the complement that a block reports is the last one given, also after copies. -/
theorem C183_option (w : World P σ) (topo : Int) (cs : List Call) :
    (cs.foldl (Call.run w) (Fv.new topo)).dual = ((cs.filterMap fun c => match c with | .dual b => some b | _ => none).getLast?.getD false) := by
  have key : ∀ (cs : List Call) (s : Fv P), (cs.foldl (Call.run w) s).dual =
      ((cs.filterMap fun c => match c with | .dual b => some b | _ => none).getLast?.getD s.dual) := by
    intro cs
    induction cs with
    | nil => exact fun s => rfl
    | cons c cs ih =>
      intro s
      rw [foldl_cons, ih]
      cases c with
      | dual b =>
        rw [filterMap_cons]
        simp only
        show _ = (b :: _).getLast?.getD _
        rw [getLast?_cons]
        rfl
      | geometry g =>
        have hd : (s.setGeometry w g).dual = s.dual := by unfold Fv.setGeometry; repeat' (first | rfl | split)
        show _ = _
        rw [filterMap_cons]
        simp only [Call.run, hd]
      | boundary g =>
        have hd : (s.setBoundary w g).dual = s.dual := by unfold Fv.setBoundary; repeat' (first | rfl | split)
        rw [filterMap_cons]
        simp only [Call.run, hd]
      | selection e =>
        rw [filterMap_cons]
        cases e <;> rfl
      | copy => rw [filterMap_cons]; rfl
  exact key cs (Fv.new topo)

example : ([Call.dual true, .geometry (some 0), .copy].foldl (Call.run (world pair pairEdges [] false)) (Fv.new 2)).dual = true := by decide

/-- **C183.** Violated: the option of the complement of the block changes nothing in its results. -/
theorem C183_dual_fails (clean : Obj P → Data P × Data Cell) (sel : σ → Bool → Obj P → List Nat) (T : Topo) (w : World P σ) (s : Fv P) (b : Bool) :
    (s.setDual b).execute clean sel T w = (s.execute clean sel T w).map fun r => (r.1.setDual b, r.2) := by
  unfold Fv.execute Fv.setDual
  cases hg : s.geo with
  | none => rfl
  | some g =>
    cases hb : s.bnd with
    | none => rfl
    | some bd =>
      cases he : s.engine with
      | none => rfl
      | some e =>
        simp only [Option.map_bind, Function.comp_def, Option.map_map]

/-- with the option, the block still selects the region and not its complement -/
example : summary ((block.setDual true).execute keepAll byRegion planar (world square squareEdges [0, 1, 3, 4, 6, 7] false)) =
    some ([0, 2], [[0, 1], [7, 6], [6, 3], [3, 0]], [[1, 4], [4, 7]], false) ∧
  summary (block.execute keepAll byRegion planar (world square squareEdges [0, 1, 3, 4, 6, 7] true)) =
    some ([1, 3], [[1, 2], [2, 5], [5, 8], [8, 7]], [[4, 1], [7, 4]], false) := by decide +kernel

/-- **C183.** Violated: a copy works on the engine of the original, so that settings of the shape on the copy are settings of the original. -/
theorem C183_copy_fails :
    (∀ (P σ : Type) (w : World P σ) (s : Fv P) (f : σ → σ), s.copy.setShape w f = s.setShape w f) ∧
    ∃ (w : World Int (Nat → Bool)) (f : (Nat → Bool) → Nat → Bool), summary (block.execute keepAll byRegion planar (block.copy.setShape w f)) ≠
      summary (block.execute keepAll byRegion planar w) :=
  ⟨fun _ _ _ _ _ => rfl, world square squareEdges [0, 1, 3, 4, 6, 7] false, fun _ => [1, 2, 4, 5, 7, 8].contains, by decide +kernel⟩

/-- what a block does that is made with a shape -/
def withShape (clean : Obj P → Data P × Data Cell) (sel : Kind × ρ → Bool → Obj P → List Nat) (T : Topo) (w : World P (Kind × ρ)) (topo : Int) (k : Kind) (shape : ρ)
    (h g b : Nat) : Option (Fv P × Bool) :=
  let n := Fv.newShape topo k shape w h
  ((n.1.setGeometry n.2 (some g)).setBoundary n.2 (some b)).execute clean sel T n.2

/-- the bulk patch of a result -/
def bulkOf (r : Option (Fv P × Bool)) : Option (Obj P) := r.bind fun r => r.1.volPatch

/-- **C183.** The bulk patch of a block made with a box or a cylinder is the part of the bulk mesh that the box or the cylinder selects. -/
theorem C183_shape {near : P → P → Prop} {clean : Obj P → Data P × Data Cell} {sel : Kind × ρ → Bool → Obj P → List Nat} {T : Topo} {w : World P (Kind × ρ)} {topo : Int}
    {k : Kind} {shape : ρ} {h g b : Nat} (hk : k ≠ .sphere)
    (hl : Linked near clean sel T (Fv.newShape topo k shape w h).2
      (((Fv.newShape topo k shape w h).1.setGeometry (Fv.newShape topo k shape w h).2 (some g)).setBoundary (Fv.newShape topo k shape w h).2 (some b)) g b h) :
    ∃ vol, bulkOf (withShape clean sel T w topo k shape h g b) = some vol ∧ SubMesh (w.obj g) vol (· ∈ sel (k, shape) false (w.obj g)) := by
  obtain ⟨vol, bp, ip, h1, h2, -⟩ := execute_spec hl
  refine ⟨vol, ?_, ?_⟩
  · unfold bulkOf withShape
    simp only [h1]
    rfl
  · have he : ((Fv.newShape topo k shape w h).2.eng h) = ({ set := (k, shape) } : Engine (Kind × ρ)) := by
      show (if h = h then ({ set := shaped k shape } : Engine (Kind × ρ)) else w.eng h) = _
      rw [if_pos rfl]
      cases k with
      | box => rfl
      | cylinder => rfl
      | sphere => exact absurd rfl hk
    rw [he] at h2
    exact h2

/-- regions: the vertices below the shape for cylinders, above it for spheres -/
def byKind (s : Kind × Nat) (dual : Bool) (o : Obj Int) : List Nat :=
  byRegion (fun v => if s.1 = .sphere then decide (s.2 ≤ v) else decide (v ≤ s.2)) dual o

def shapeWorld : World Int (Kind × Nat) := ⟨fun i => if i = 0 then square else squareEdges, fun _ => ⟨(.box, 0), false⟩⟩

example : Linked (fun _ _ => False) keepAll byKind planar (Fv.newShape 2 .cylinder 5 shapeWorld 0).2
      (((Fv.newShape 2 .cylinder 5 shapeWorld 0).1.setGeometry (Fv.newShape 2 .cylinder 5 shapeWorld 0).2 (some 0)).setBoundary
        (Fv.newShape 2 .cylinder 5 shapeWorld 0).2 (some 1)) 0 1 0 := by
  refine ⟨rfl, rfl, rfl, Or.inr ⟨rfl, rfl⟩, square_good, squareEdges_good, square_faces, ?_, keep_cleaned, ?_, fun _ _ _ _ _ _ _ _ _ _ _ h => h⟩
  · have : ∀ c ∈ squareEdges.cells, vertexIds c.2 ≠ [] := by decide
    exact fun id c hc => this (id, c) (get_some_mem hc)
  · intro k _ i hi
    obtain ⟨c, hc, rfl⟩ := mem_map.1 hi
    exact (Field.has_iff _ _).2 (mem_map.2 ⟨c, (mem_filter.1 hc).1, rfl⟩)

/-- **C183.** Violated: a block made with a sphere selects with the cylinder of the same parameters. -/
theorem C183_sphere_fails :
    (∀ (P ρ : Type) (clean : Obj P → Data P × Data Cell) (sel : Kind × ρ → Bool → Obj P → List Nat) (T : Topo) (w : World P (Kind × ρ)) (topo : Int) (shape : ρ) (h g b : Nat),
      withShape clean sel T w topo .sphere shape h g b = withShape clean sel T w topo .cylinder shape h g b) ∧
    ∃ vol, bulkOf (withShape keepAll byKind planar shapeWorld 2 .sphere 5 0 0 1) = some vol ∧ cellIds vol ≠ byKind (.sphere, 5) false square := by
  refine ⟨fun _ _ _ _ _ _ _ _ _ _ _ => rfl, ?_⟩
  have h : (bulkOf (withShape keepAll byKind planar shapeWorld 2 .sphere 5 0 0 1)).map cellIds = some [0, 1] := by decide +kernel
  obtain ⟨vol, h1, h2⟩ := Option.map_eq_some_iff.1 h
  refine ⟨vol, h1, ?_⟩
  rw [h2]
  decide +kernel

/-- **C183.** Topology and option of the complement come back from the section they were written to; sections of other blocks leave the defaults. -/
theorem C183_section {stoi : Stoi} {bool : Stream} (name : String) (topo : Int) (dual : Bool) (h1 : stoi "1" = some 1) (h2 : stoi "2" = some 2)
    (hb0 : bool "0" = 0) (hb1 : bool "1" = 1) (hn : name ≠ "ClassNONE") :
    readSection stoi bool name (writeSection name (Fv.new (P := P) topo).topo dual) = some ((Fv.new (P := P) topo).topo, dual, true) ∧
      readSection stoi bool name {} = some (1, false, false) ∧
      ∀ other ≠ name, readSection stoi bool name (writeSection other (Fv.new (P := P) topo).topo dual) = some ((Fv.new (P := P) topo).topo, false, false) := by
  have ht : (Fv.new (P := P) topo).topo = 1 ∨ (Fv.new (P := P) topo).topo = 2 := by
    show (min 2 (max 1 topo)).toNat = 1 ∨ (min 2 (max 1 topo)).toNat = 2
    omega
  have e1 : toString (1 : Nat) = "1" := by decide
  have e2 : toString (2 : Nat) = "2" := by decide
  have hd : (if (if dual = true then "1" else "0") = "" then false else bool (if dual = true then "1" else "0") != 0) = dual := by
    cases dual
    · simp [hb0]
    · simp [hb1]
  refine ⟨?_, ?_, ?_⟩
  · unfold readSection writeSection
    simp only [Option.getD_some, Option.map_some, if_true, hd]
    rcases ht with ht | ht <;> simp only [ht, e1, e2, h1, h2, Option.map_some] <;> rfl
  · unfold readSection
    simp only [Option.getD_none, h1, Option.map_some, if_neg (Ne.symm hn)]
    rfl
  · intro other ho
    unfold readSection writeSection
    simp only [Option.getD_some, if_neg ho]
    rcases ht with ht | ht <;> simp only [ht, e1, e2, h1, h2, Option.map_some] <;> rfl

example : ∃ (stoi : Stoi) (bool : Stream), stoi "1" = some 1 ∧ stoi "2" = some 2 ∧ bool "0" = 0 ∧ bool "1" = 1 :=
  ⟨fun s => if s = "1" then some 1 else if s = "2" then some 2 else none, fun s => if s = "1" then 1 else 0, by decide, by decide, by decide, by decide⟩

/-- **C183.** A topology out of range is read as the nearest one. -/
theorem C183_topology {stoi : Stoi} {bool : Stream} (name : String) (x : Section) {s : String} {t : Int} (hx : x.topology = some s) (ht : stoi s = some t) :
    ∃ d r, readSection stoi bool name x = some (if t ≤ 1 then 1 else 2, d, r) := by
  have e : (min 2 (max 1 t)).toNat = if t ≤ 1 then 1 else 2 := by split <;> omega
  unfold readSection
  rw [hx, Option.getD_some, ht, Option.map_some, e]
  by_cases h : x.className.getD "ClassNONE" = name
  · simp only [h, if_true]
    exact ⟨_, _, rfl⟩
  · simp only [h, if_false]
    exact ⟨_, _, rfl⟩

example : ∃ stoi : Stoi, stoi "17" = some 17 := ⟨fun s => if s = "17" then some 17 else none, by decide⟩

/-- **C183.** Violated: an empty option for the topology, which the reading of the other options would take as 1, makes the constructor throw. -/
theorem C183_empty_fails {stoi : Stoi} {bool : Stream} (name : String) (h : stoi "" = none) (x : Section) (hx : x.topology = some "") :
    readSection stoi bool name x = none := by
  unfold readSection
  rw [hx, Option.getD_some, h]
  rfl

example : (∃ stoi : Stoi, stoi "1" = some 1 ∧ stoi "" = none) ∧ ({ topology := some "" } : Section).topology = some "" :=
  ⟨⟨fun s => if s = "1" then some 1 else none, by decide, by decide⟩, rfl⟩

end Verif.FvSel
