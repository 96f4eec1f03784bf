import Verif.Utils.Mirror
import Verif.Mesh.TriProps
import Verif.Mesh.QueryProps
import Verif.Mesh.DegrProps

/-!
Properties of mirrored point clouds and projected patches: C128 to C131.
-/

namespace Verif.Utils
open List hiding get get_of_mem
open Verif.Shape Verif.Manip Verif.Mesh Verif.Field Verif.Rbf
noncomputable section

/-! ### The loop -/

/-- the part of the cloud that is mirrored -/
def picked (n : V3) (d sig margin : ℝ) (force : Bool) (es : Data V3) : Data V3 := by
  classical exact es.filter fun e => decide (margin < sig * (dot n e.2 + d) ∨ force = true)

/-- the image of a point -/
def imageOf (n : V3) (d sig : ℝ) (p : V3) : V3 := p - V3.scale (2 * (sig * (dot n p + d)) * sig) n

/-- the image of a vector -/
def imageVec (n : V3) (sig : ℝ) (b : V3) : V3 := b - V3.scale (2 * dot b (V3.scale sig n) * sig) n

/-- all ids are below a label -/
def Under {α : Type} (d : Data α) (l : Nat) : Prop := ∀ i ∈ d.map Prod.fst, i < l

theorem under_free {α : Type} {d : Data α} {l : Nat} (h : Under d l) : has d l = false := by
  rw [Bool.eq_false_iff]; intro hh
  exact absurd (h l ((has_iff d l).1 hh)) (lt_irrefl _)

theorem under_put {α : Type} {d : Data α} {l : Nat} (h : Under d l) (v : α) : Under (d ++ [(l, v)]) (l + 1) := by
  intro i hi
  simp only [map_append, map_cons, map_nil, mem_append, mem_singleton] at hi
  rcases hi with hi | rfl
  · exact lt_trans (h i hi) (Nat.lt_succ_self l)
  · exact Nat.lt_succ_self _

theorem put_skd (o : Obj V3) (t : Elem) (conn : List Nat) (pid : Int) (i : Nat) (h : o.skd.st = .notSupported) :
    (putCell o t conn pid i).skd.st = .notSupported := by
  simp only [putCell, setPIDCell, unsyncCell]; split <;> simp [h, Status.cap]

theorem mirror_loop (n : V3) (d sig margin : ℝ) (force : Bool) (a : Nat → ℝ) (b : Nat → V3) :
    ∀ (es : Data V3) (st : Growing), (∀ e ∈ es, get st.o.verts e.1 = some e.2) → (∀ e ∈ es, get st.s e.1 = some (a e.1)) →
      (∀ e ∈ es, get st.v e.1 = some (b e.1)) → Under st.o.verts st.vl → Under st.o.cells st.cl → Under st.s st.vl →
      Under st.v st.vl → st.o.skd.st = .notSupported →
      ∃ r, mirrorLoop n d sig margin force (es.map Prod.fst) st = some r ∧ r.o.type = st.o.type ∧
        r.o.skd.st = .notSupported ∧
        r.o.verts = st.o.verts ++
          (picked n d sig margin force es).mapIdx (fun k e => (st.vl + k, imageOf n d sig e.2)) ∧
        r.o.cells = st.o.cells ++
          (picked n d sig margin force es).mapIdx (fun k _ => (st.cl + k, (⟨.vertex, [st.vl + k], 0, true⟩ : Cell))) ∧
        r.s = st.s ++ (picked n d sig margin force es).mapIdx (fun k e => (st.vl + k, a e.1)) ∧
        r.v = st.v ++ (picked n d sig margin force es).mapIdx (fun k e => (st.vl + k, imageVec n sig (b e.1))) := by
  intro es
  induction es with
  | nil => intro st _ _ _ _ _ _ _ hk; exact ⟨st, rfl, rfl, hk, by simp [picked]⟩
  | cons e es ih =>
    intro st hp hs hv u1 u2 u3 u4 hk
    have hp0 := hp e (by simp)
    have hs0 := hs e (by simp)
    have hv0 := hv e (by simp)
    simp only [map_cons, mirrorLoop, mirrorStep, hp0]
    by_cases hc : margin < sig * (dot n e.2 + d) ∨ force = true
    · rw [if_pos hc]
      have f1 := under_free u1
      have f2 := under_free u2
      have ha : addVertex st.o 0 (e.2 - V3.scale (2 * (sig * (dot n e.2 + d)) * sig) n) (some st.vl) =
          addVertex.put st.o (imageOf n d sig e.2) st.vl := by
        simp only [addVertex, f1, imageOf]; rfl
      let o1 := (addVertex.put st.o (imageOf n d sig e.2) st.vl).1
      have hcell : addConnectedCell o1 0 [st.vl] .vertex 0 (some st.cl) = (putCell o1 .vertex [st.vl] 0 st.cl, some st.cl) := by
        simp only [addConnectedCell, Option.any_some, Option.getD_some]
        have : has o1.cells st.cl = false := f2
        simp [this, checkConn]
      have i1 : ins st.s st.vl (a e.1) = some (st.s ++ [(st.vl, a e.1)]) := by simp [ins, under_free u3]
      have i2 : ins st.v st.vl (b e.1 - V3.scale (2 * dot (b e.1) (V3.scale sig n) * sig) n) =
          some (st.v ++ [(st.vl, imageVec n sig (b e.1))]) := by simp [ins, under_free u4, imageVec]
      simp only [ha, hs0, hv0, i1, i2]
      have hcv : (putCell o1 .vertex [st.vl] 0 st.cl).cells = st.o.cells ++ [(st.cl, ⟨.vertex, [st.vl], 0, true⟩)] := by
        rw [putCell_cells (show has o1.cells st.cl = false from f2)]
        rfl
      have hvv : (putCell o1 .vertex [st.vl] 0 st.cl).verts = st.o.verts ++ [(st.vl, imageOf n d sig e.2)] := by
        rw [putCell_verts]; rfl
      have keep : ∀ {α : Type} (l : Data α) (x : α) (y : α) (j : Nat), get l j = some x → get (l ++ [(st.vl, y)]) j = some x := by
        intro α l x y j h; rw [get_append, h]; rfl
      have hkk : (putCell o1 .vertex [st.vl] 0 st.cl).skd.st = .notSupported := put_skd _ _ _ _ _ hk
      obtain ⟨r, e1, e2, e3, e4, e5, e6, e7⟩ := ih
        ⟨putCell o1 .vertex [st.vl] 0 st.cl, st.vl + 1, st.cl + 1, st.s ++ [(st.vl, a e.1)],
          st.v ++ [(st.vl, imageVec n sig (b e.1))]⟩
        (by intro x hx; simp only [hvv]; exact keep _ _ _ _ (hp x (by simp [hx])))
        (by intro x hx; exact keep _ _ _ _ (hs x (by simp [hx])))
        (by intro x hx; exact keep _ _ _ _ (hv x (by simp [hx])))
        (by simp only [hvv]; exact under_put u1 _) (by simp only [hcv]; exact under_put u2 _)
        (under_put u3 _) (under_put u4 _) hkk
      refine ⟨r, ?_, ?_, e3, ?_⟩
      · change (mirrorLoop n d sig margin force (es.map Prod.fst) _) = some r
        rw [← e1]
        show mirrorLoop n d sig margin force (es.map Prod.fst) ⟨(addConnectedCell o1 0 [st.vl] .vertex 0 (some st.cl)).1, _, _, _, _⟩ = _
        rw [hcell]
      · rw [e2]; exact putCell_type _ _ _ _ _
      · have hpk : picked n d sig margin force (e :: es) = e :: picked n d sig margin force es := by
          simp [picked, hc]
        rw [hpk]
        simp only [mapIdx_cons, Nat.add_zero]
        simp only [hvv, hcv] at e4 e5
        simp only [Nat.add_comm _ 1, ← Nat.add_assoc] at e4 e5 e6 e7 ⊢
        refine ⟨by rw [e4]; simp, by rw [e5]; simp, by rw [e6]; simp, by rw [e7]; simp⟩
    · rw [if_neg hc]
      have hpk : picked n d sig margin force (e :: es) = picked n d sig margin force es := by
        simp only [picked]; rw [filter_cons_of_neg (by simpa using hc)]
      rw [hpk]
      exact ih st (fun x hx => hp x (by simp [hx])) (fun x hx => hs x (by simp [hx])) (fun x hx => hv x (by simp [hx]))
        u1 u2 u3 u4 hk

theorem label_under {α : Type} (d : Data α) : Under d (labelAbove (d.map Prod.fst)) := by
  have key : ∀ (l : List Nat) (m i : Nat), i ∈ l ∨ i ≤ m → i ≤ l.foldl max m := by
    intro l
    induction l with
    | nil => intro m i h; simpa using h
    | cons x l ih =>
      intro m i h
      rw [foldl_cons]
      apply ih
      rcases h with h | h
      · rcases mem_cons.1 h with rfl | h
        · right; exact le_max_right _ _
        · left; exact h
      · right; exact le_trans h (le_max_left _ _)
  intro i hi
  cases hd : d.map Prod.fst with
  | nil => rw [hd] at hi; simp at hi
  | cons x l =>
    rw [hd] at hi
    simp only [labelAbove]
    apply Nat.lt_succ_of_le
    apply key
    rcases mem_cons.1 hi with rfl | h
    · right; exact le_rfl
    · left; exact h

/-! ### Lists of new entries -/

theorem get_new {α β : Type} : ∀ (l : List α) (f : Nat → α → β) (v j : Nat),
    get (l.mapIdx (fun k e => (v + k, f k e))) (v + j) = (l[j]?).map (f j) := by
  intro l
  induction l with
  | nil => intro f v j; simp [Verif.Field.get]
  | cons x l ih =>
    intro f v j
    rw [mapIdx_cons, get_cons]
    cases j with
    | zero => simp
    | succ j =>
      simp only [Nat.add_zero]
      rw [if_neg (by omega), getElem?_cons_succ, ← ih (fun k => f (k + 1)) (v + 1) j]
      congr 1
      · congr 1; funext k e; congr 1; omega
      · omega

theorem get_new_below {α β : Type} (f : Nat → α → β) : ∀ (l : List α) (v i : Nat), i < v →
    get (l.mapIdx (fun k e => (v + k, f k e))) i = none := by
  intro l v i h
  rw [get_none_iff]
  simp only [mem_map, mem_mapIdx]
  rintro ⟨e, ⟨k, hk, rfl⟩, rfl⟩
  simp at h

theorem get_old {α : Type} {d e : Data α} {i : Nat} {x : α} (h : get d i = some x) : get (d ++ e) i = some x := by
  rw [get_append, h]; rfl

theorem under_none {α : Type} {d : Data α} {l i : Nat} (h : Under d l) (hi : l ≤ i) : get d i = none := by
  rw [get_none_iff]; intro hm; exact absurd (h i hm) (not_lt.2 hi)

theorem get_added {α β : Type} {d : Data β} {v : Nat} (h : Under d v) (f : α → β) (l : List α) (j : Nat) :
    get (d ++ l.mapIdx (fun k e => (v + k, f e))) (v + j) = (l[j]?).map f := by
  rw [get_append, under_none h (Nat.le_add_right v j), Option.none_or, get_new l (fun _ => f)]

theorem get_added' {α β : Type} {d : Data β} {v : Nat} (h : Under d v) (f : Nat → α → β) (l : List α) (j : Nat) :
    get (d ++ l.mapIdx (fun k e => (v + k, f k e))) (v + j) = (l[j]?).map (f j) := by
  rw [get_append, under_none h (Nat.le_add_right v j), Option.none_or, get_new l f]

theorem ok_added {α β : Type} : ∀ (l : List α) (f : Nat → α → β) (d : Data β) (v : Nat), Ok d → Under d v →
    Ok (d ++ l.mapIdx (fun k e => (v + k, f k e))) := by
  intro l
  induction l with
  | nil => intro f d v h _; simpa using h
  | cons x l ih =>
    intro f d v h hu
    have hk : Ok (d ++ [(v, f 0 x)]) := by
      unfold Ok at h ⊢
      rw [map_append, nodup_append]
      refine ⟨h, by simp, ?_⟩
      intro a ha b hb
      simp at hb
      subst hb
      exact (hu a ha).ne
    have := ih (fun k => f (k + 1)) (d ++ [(v, f 0 x)]) (v + 1) hk (under_put hu _)
    rw [mapIdx_cons, Nat.add_zero]
    simp only [Nat.add_comm _ 1, ← Nat.add_assoc, append_assoc, singleton_append] at this ⊢
    exact this

/-! ### Data of the clone -/

theorem copied_keys {α : Type} (input : Option (Data α)) (ids : List Nat) (out : Data α) :
    (copied input ids out).map Prod.fst = out.map Prod.fst := by
  cases input with
  | none => rfl
  | some f =>
    simp only [copied]
    induction ids generalizing out with
    | nil => rfl
    | cons i ids ih =>
      rw [foldl_cons, ih]
      cases get f i with
      | none => rfl
      | some v => exact keys_setAt _ _ _

theorem copied_get {α : Type} (input : Option (Data α)) (ids : List Nat) (out : Data α) {j : Nat} {x : α}
    (h : get out j = some x) (hj : j ∈ ids) :
    get (copied input ids out) j = some ((input.bind (fun f => get f j)).getD x) := by
  cases input with
  | none => simpa [copied] using h
  | some f =>
    simp only [copied, Option.bind_some]
    have key : ∀ (ids : List Nat) (out : Data α) (x : α), get out j = some x →
        get (ids.foldl (fun out id => match get f id with | none => out | some v => setAt out id v) out) j =
          some (if j ∈ ids then (get f j).getD x else x) := by
      intro ids
      induction ids with
      | nil => intro out x h; simpa using h
      | cons i ids ih =>
        intro out x h
        rw [foldl_cons]
        by_cases hij : j = i
        · subst hij
          cases hf : get f j with
          | none =>
            simp only
            rw [ih out x h, hf]; simp
          | some v =>
            simp only
            rw [ih (setAt out j v) v (by rw [get_setAt]; simp [has_eq_isSome, h]), hf]
            simp
        · have hx : get (match get f i with | none => out | some v => setAt out i v) j = some x := by
            cases get f i with
            | none => exact h
            | some v => simp only; rw [get_setAt, if_neg (by tauto)]; exact h
          rw [ih _ x hx]
          simp [hij]
    exact (key ids out x h).trans (by rw [if_pos hj])

theorem zeros_get {α : Type} (z : α) {vs : Data V3} {j : Nat} {p : V3} (h : get vs j = some p) : get (zeros z vs) j = some z := by
  unfold zeros
  rw [get_mapv (fun _ => z) vs j, h]; rfl

theorem zeros_keys {α : Type} (z : α) (vs : Data V3) : (zeros z vs).map Prod.fst = vs.map Prod.fst := by
  simp [zeros, Function.comp_def]

/-! ### Updating a cloud, moving all vertices -/

theorem update_cloud {o : Obj V3} (h : o.skd.st = .notSupported) : ∃ o', update o = some o' := by
  have hsk : (stepInt (stepAdj o)).skd = o.skd := by
    have u : ∀ p : Obj V3, (updateAdj p).skd = p.skd := by
      intro p; unfold updateAdj; split <;> rfl
    have a : (stepAdj o).skd = o.skd := by
      unfold stepAdj; split
      · exact u o
      · rfl
    have b : ∀ p : Obj V3, (stepInt p).skd = p.skd := by
      intro p; unfold stepInt updateInt; split
      · simp only
        split <;> split <;> first | rfl | exact u p
      · rfl
    rw [b, a]
  unfold update stepSkd
  rw [hsk, h, if_neg (by simp)]
  exact ⟨_, rfl⟩

theorem move_fold (f : V3 → V3) : ∀ (es : Data V3) (r : Obj V3), Ok es → (∀ e ∈ es, has r.verts e.1 = true) →
    (es.foldl (fun r e => (modifyVertex r (f e.2) e.1).1) r).verts =
      r.verts.map (fun x => match get es x.1 with | some p => (x.1, f p) | none => x) ∧
    (es.foldl (fun r e => (modifyVertex r (f e.2) e.1).1) r).cells = r.cells ∧
    (es.foldl (fun r e => (modifyVertex r (f e.2) e.1).1) r).type = r.type ∧
    (es.foldl (fun r e => (modifyVertex r (f e.2) e.1).1) r).pids = r.pids ∧
    (es.foldl (fun r e => (modifyVertex r (f e.2) e.1).1) r).names = r.names ∧
    (es.foldl (fun r e => (modifyVertex r (f e.2) e.1).1) r).tree = r.tree ∧
    ((es.foldl (fun r e => (modifyVertex r (f e.2) e.1).1) r).skd.st = .notSupported ↔ r.skd.st = .notSupported) := by
  intro es
  induction es with
  | nil => intro r _ _; simp [Verif.Field.get]
  | cons e es ih =>
    intro r hok hh
    have h1 : modifyVertex r (f e.2) e.1 = ({ r with
        verts := setAt r.verts e.1 (f e.2)
        skd := { r.skd with st := r.skd.st.cap }
        kd := { r.kd with st := r.kd.st.cap }
        info := { r.info with st := r.info.st.cap }
        bbox := { r.bbox with st := r.bbox.st.cap } }, true) := by
      unfold modifyVertex; rw [if_pos (hh e (by simp))]
    have hk := hok
    simp only [Ok, map_cons, nodup_cons] at hk
    rw [foldl_cons, h1]
    obtain ⟨a1, a2, a3, a4, a5, a6, a7⟩ := ih ({ r with
        verts := setAt r.verts e.1 (f e.2)
        skd := { r.skd with st := r.skd.st.cap }
        kd := { r.kd with st := r.kd.st.cap }
        info := { r.info with st := r.info.st.cap }
        bbox := { r.bbox with st := r.bbox.st.cap } }) hk.2
      (by intro x hx; simp only; rw [has_iff, keys_setAt, ← has_iff]; exact hh x (by simp [hx]))
    refine ⟨?_, a2, a3, a4, a5, a6, by rw [a7]; exact cap_notSupported _⟩
    rw [a1]
    simp only [setAt, map_map]
    apply map_congr_left
    intro x hx
    simp only [Function.comp]
    by_cases hxe : x.1 = e.1
    · rw [if_pos hxe]
      have : get es e.1 = none := by rw [get_none_iff]; exact hk.1
      simp only [this, get_cons, hxe, if_true]
    · rw [if_neg hxe]
      simp only [get_cons]
      rw [if_neg (fun h => hxe h.symm)]

theorem move_all (f : V3 → V3) {o : Obj V3} (hok : Ok o.verts) :
    (moveAll f o).verts = o.verts.map (fun x => (x.1, f x.2)) ∧ (moveAll f o).cells = o.cells ∧ (moveAll f o).type = o.type ∧
      (moveAll f o).pids = o.pids ∧ (moveAll f o).names = o.names ∧ (moveAll f o).tree = o.tree ∧
      ((moveAll f o).skd.st = .notSupported ↔ o.skd.st = .notSupported) := by
  obtain ⟨a1, a2⟩ := move_fold f o.verts o hok (by
    intro e he; rw [has_iff]; exact mem_map.2 ⟨e, he, rfl⟩)
  refine ⟨?_, a2⟩
  unfold moveAll
  rw [a1]
  apply map_congr_left
  intro x hx
  rw [Verif.Mesh.get_of_mem hok hx]

/-! ### Specification -/

/-- a point cloud in order: vertices and cells with distinct ids, only point elements, up to date structures -/
structure GoodCloud (o : Obj V3) : Prop where
  type : o.type = 3
  verts : Ok o.verts
  cells : Ok o.cells
  fresh : Fresh o
  elems : ∀ c ∈ o.cells, c.2.elem = .vertex
  names : (o.names.map Prod.fst).Nodup
  skd : o.skd.st ≠ .sync
  kd : o.kd.st = .sync → o.verts ≠ []
  pc : o.pc.st ≠ .sync

/-- specification: `q` is the mirror image of `p` in the plane through `c` with normal `n` -/
structure Reflected (c n p q : V3) : Prop where
  /-- the points are joined along the normal -/
  along : cross n (q - p) = ⟨0, 0, 0⟩
  /-- the middle point lies on the plane -/
  middle : dot n (V3.scale (1 / 2) (p + q) - c) = 0

/-- specification: `b` is the mirror image of the vector `a` in a plane with normal `n` -/
structure ReflectedVec (n a b : V3) : Prop where
  along : cross n (b - a) = ⟨0, 0, 0⟩
  opposite : dot n b = - dot n a

/-- specification of a cloud with its mirrored points.  `r`, `s`, `v`: new cloud and data; `Sel`: the points mirrored;
`post`: what is done to points afterwards; `s0`, `v0`: data of the original points; `twin`: id of the image of a point. -/
structure Mirrored (o r : Obj V3) (Sel : V3 → Prop) (c n : V3) (post : V3 → V3) (s0 : Nat → ℝ) (v0 : Nat → V3)
    (s : Data ℝ) (v : Data V3) (twin : Nat → Nat) : Prop where
  kept : ∀ id p, get o.verts id = some p →
    get r.verts id = some (post p) ∧ get s id = some (s0 id) ∧ get v id = some (v0 id)
  fresh : ∀ id p, get o.verts id = some p → Sel p → get o.verts (twin id) = none
  image : ∀ id p, get o.verts id = some p → Sel p → ∃ q, Reflected c n p q ∧ get r.verts (twin id) = some (post q)
  scalar : ∀ id p, get o.verts id = some p → Sel p → get s (twin id) = some (s0 id)
  vector : ∀ id p, get o.verts id = some p → Sel p → ∃ b, ReflectedVec n (v0 id) b ∧ get v (twin id) = some b
  inj : ∀ id p id' p', get o.verts id = some p → Sel p → get o.verts id' = some p' → Sel p' → twin id = twin id' → id = id'
  only : ∀ i, (get r.verts i).isSome → (get o.verts i).isSome ∨ ∃ id p, get o.verts id = some p ∧ Sel p ∧ i = twin id
  onlyData : ∀ i, (get s i).isSome = (get r.verts i).isSome ∧ (get v i).isSome = (get r.verts i).isSome
  cellsKept : ∀ i c, get o.cells i = some c → get r.cells i = some c
  cell : ∀ id p, get o.verts id = some p → Sel p →
    ∃ i, get o.cells i = none ∧ get r.cells i = some ⟨.vertex, [twin id], 0, true⟩
  cellsOnly : ∀ i c, get r.cells i = some c → get o.cells i = some c ∨
    ∃ id p, get o.verts id = some p ∧ Sel p ∧ c = ⟨.vertex, [twin id], 0, true⟩
  type : r.type = o.type

/-- the plane in force passes through `c` with normal `n`: given by coefficients of a unit normal, or by origin and
normal when no coefficients were given -/
def InForce (s : Mirror) (c n : V3) : Prop :=
  (s.implicit = true ∧ n ≠ ⟨0, 0, 0⟩ ∧ DirectionOf n s.n ∧ dot s.n c + s.d = 0) ∨
  (s.implicit = false ∧ c = s.origin ∧ n = s.normal ∧ tiny < norm2 n)

/-- specification: `p` is further than `margin` from the plane, on the side chosen -/
def Beyond (s : Mirror) (margin : ℝ) (c n p : V3) : Prop :=
  margin * norm2 n < (if s.insideOut then -1 else 1) * dot n (p - c)

/-- specification: data of a point, zero where the input has none -/
def dataAt {α : Type} (input : Option (Data α)) (z : α) (id : Nat) : α := (input.bind (fun f => get f id)).getD z

/-! ### C128 -/

theorem reflected_unique {c n p q q' : V3} (hn : n ≠ ⟨0, 0, 0⟩) (h : Reflected c n p q) (h' : Reflected c n p q') : q = q' := by
  have a := h.along
  have b := h'.along
  have m := h.middle
  have m' := h'.middle
  have ha1 := congrArg V3.x a; have ha2 := congrArg V3.y a; have ha3 := congrArg V3.z a
  have hb1 := congrArg V3.x b; have hb2 := congrArg V3.y b; have hb3 := congrArg V3.z b
  simp only [cross, dot, V3.scale, add_x, add_y, add_z, sub_x, sub_y, sub_z] at ha1 ha2 ha3 hb1 hb2 hb3 m m'
  have hd : dot n n ≠ 0 := fun e => hn (dot_self_eq_zero e)
  -- the difference of the images is parallel and orthogonal to the normal
  have o1 : n.x * (q.x - q'.x) + n.y * (q.y - q'.y) + n.z * (q.z - q'.z) = 0 := by linarith
  have c1 : n.y * (q.z - q'.z) - n.z * (q.y - q'.y) = 0 := by linarith
  have c2 : n.z * (q.x - q'.x) - n.x * (q.z - q'.z) = 0 := by linarith
  have c3 : n.x * (q.y - q'.y) - n.y * (q.x - q'.x) = 0 := by linarith
  have e1 : dot n n * (q.x - q'.x) = 0 := by
    simp only [dot]; linear_combination n.x * o1 + n.z * c2 - n.y * c3
  have e2 : dot n n * (q.y - q'.y) = 0 := by
    simp only [dot]; linear_combination n.y * o1 - n.z * c1 + n.x * c3
  have e3 : dot n n * (q.z - q'.z) = 0 := by
    simp only [dot]; linear_combination n.z * o1 + n.y * c1 - n.x * c2
  ext
  · exact sub_eq_zero.1 ((mul_eq_zero.1 e1).resolve_left hd)
  · exact sub_eq_zero.1 ((mul_eq_zero.1 e2).resolve_left hd)
  · exact sub_eq_zero.1 ((mul_eq_zero.1 e3).resolve_left hd)

theorem image_reflected {u : V3} {d sig : ℝ} {c n : V3} {l : ℝ} (hu : dot u u = 1) (hs : sig * sig = 1) (hd : dot u c + d = 0)
    (hl : n = V3.scale l u) (p : V3) : Reflected c n p (imageOf u d sig p) := by
  constructor
  · subst hl
    ext <;> simp only [cross, imageOf, V3.scale, sub_x, sub_y, sub_z] <;> ring
  · subst hl
    have e : dot (V3.scale l u) (V3.scale (1 / 2) (p + imageOf u d sig p) - c) =
        l * (dot u p - dot u c - (sig * sig) * (dot u p + d) * dot u u) := by
      simp only [dot, imageOf, V3.scale, add_x, add_y, add_z, sub_x, sub_y, sub_z]; ring
    rw [e, hu, hs]
    linear_combination l * (-hd)

theorem imageVec_reflected {u n : V3} {sig l : ℝ} (hu : dot u u = 1) (hs : sig * sig = 1) (hl : n = V3.scale l u) (a : V3) :
    ReflectedVec n a (imageVec u sig a) := by
  subst hl
  constructor
  · ext <;> simp only [cross, imageVec, V3.scale, sub_x, sub_y, sub_z] <;> ring
  · have e : dot (V3.scale l u) (imageVec u sig a) = l * (dot u a - 2 * (sig * sig) * dot u a * dot u u) := by
      simp only [dot, imageVec, V3.scale, sub_x, sub_y, sub_z]; ring
    rw [e, hu, hs]
    simp only [dot, V3.scale]; ring

/-- the new list of points, cells and data meets the specification -/
theorem mirrored_of {o r : Obj V3} {u c n : V3} {d sig margin l : ℝ} {force : Bool} {post : V3 → V3} {a : Nat → ℝ} {b : Nat → V3}
    {s : Data ℝ} {v : Data V3} {s1 : Data ℝ} {v1 : Data V3} {vl cl : Nat}
    (hu : dot u u = 1) (hs : sig * sig = 1) (hd : dot u c + d = 0) (hl : n = V3.scale l u)
    (hok : Ok o.verts) (uv : Under o.verts vl) (uc : Under o.cells cl)
    (ha : ∀ id p, get o.verts id = some p → get s1 id = some (a id)) (hb : ∀ id p, get o.verts id = some p → get v1 id = some (b id))
    (ks : s1.map Prod.fst = o.verts.map Prod.fst) (kv : v1.map Prod.fst = o.verts.map Prod.fst)
    (e1 : r.verts = (o.verts ++ (picked u d sig margin force o.verts).mapIdx (fun k e => (vl + k, imageOf u d sig e.2))).map
      (fun x => (x.1, post x.2)))
    (e2 : r.cells = o.cells ++ (picked u d sig margin force o.verts).mapIdx
      (fun k _ => (cl + k, (⟨.vertex, [vl + k], 0, true⟩ : Cell))))
    (e3 : s = s1 ++ (picked u d sig margin force o.verts).mapIdx (fun k e => (vl + k, a e.1)))
    (e4 : v = v1 ++ (picked u d sig margin force o.verts).mapIdx (fun k e => (vl + k, imageVec u sig (b e.1))))
    (ht : r.type = o.type) :
    Mirrored o r (fun p => margin < sig * (dot u p + d) ∨ force = true) c n post a b s v
      (fun id => vl + ((picked u d sig margin force o.verts).map Prod.fst).idxOf id) := by
  generalize hpk : picked u d sig margin force o.verts = pk at *
  have us : Under s1 vl := by unfold Under; rw [ks]; exact uv
  have uv1 : Under v1 vl := by unfold Under; rw [kv]; exact uv
  have hmem : ∀ e, e ∈ pk ↔ e ∈ o.verts ∧ (margin < sig * (dot u e.2 + d) ∨ force = true) := by
    intro e; rw [← hpk]; simp [picked]
  have hnd : (pk.map Prod.fst).Nodup := by
    rw [← hpk]; unfold picked
    exact hok.sublist ((filter_sublist).map _)
  -- position of a selected point
  have pos : ∀ id p, get o.verts id = some p → (margin < sig * (dot u p + d) ∨ force = true) →
      pk[(pk.map Prod.fst).idxOf id]? = some (id, p) := by
    intro id p h hsel
    have hm : (id, p) ∈ pk := (hmem _).2 ⟨get_some_mem h, hsel⟩
    have hi : id ∈ pk.map Prod.fst := mem_map.2 ⟨_, hm, rfl⟩
    have hlt := idxOf_lt_length_of_mem hi
    have h1 : (pk.map Prod.fst)[(pk.map Prod.fst).idxOf id]? = some id := by
      rw [List.getElem?_eq_getElem hlt, getElem_idxOf hlt]
    rw [List.getElem?_map, Option.map_eq_some_iff] at h1
    obtain ⟨e, he, hei⟩ := h1
    have hem : e ∈ pk := mem_of_getElem? he
    have h2 : get o.verts e.1 = some e.2 := Verif.Mesh.get_of_mem hok ((hmem e).1 hem).1
    rw [hei, h] at h2
    rw [he, ← hei, Option.some.inj h2]
  have back : ∀ j e, pk[j]? = some e → get o.verts e.1 = some e.2 ∧ (margin < sig * (dot u e.2 + d) ∨ force = true) ∧
      (pk.map Prod.fst).idxOf e.1 = j := by
    intro j e hj
    have hem : e ∈ pk := mem_of_getElem? hj
    refine ⟨Verif.Mesh.get_of_mem hok ((hmem e).1 hem).1, ((hmem e).1 hem).2, ?_⟩
    obtain ⟨hlt, hej⟩ := List.getElem?_eq_some_iff.1 hj
    have := hnd.idxOf_getElem j (by simpa using hlt)
    rw [← this]; simp [hej]
  have gv : ∀ i, get r.verts i = (get (o.verts ++ pk.mapIdx (fun k e => (vl + k, imageOf u d sig e.2))) i).map post := by
    intro i; rw [e1, get_mapv]
  constructor
  · intro id p h
    refine ⟨?_, ?_, ?_⟩
    · rw [gv, get_old h]; rfl
    · rw [e3]; exact get_old (ha id p h)
    · rw [e4]; exact get_old (hb id p h)
  · intro id p h hsel
    exact under_none uv (Nat.le_add_right _ _)
  · intro id p h hsel
    refine ⟨imageOf u d sig p, image_reflected hu hs hd hl p, ?_⟩
    rw [gv, get_added uv (fun e : Nat × V3 => imageOf u d sig e.2), pos id p h hsel]; rfl
  · intro id p h hsel
    rw [e3, get_added us (fun e : Nat × V3 => a e.1), pos id p h hsel]; rfl
  · intro id p h hsel
    refine ⟨imageVec u sig (b id), imageVec_reflected hu hs hl _, ?_⟩
    rw [e4, get_added uv1 (fun e : Nat × V3 => imageVec u sig (b e.1)), pos id p h hsel]; rfl
  · intro id p id' p' h hsel h' hsel' heq
    have h1 := pos id p h hsel
    have h2 := pos id' p' h' hsel'
    have : (pk.map Prod.fst).idxOf id = (pk.map Prod.fst).idxOf id' := Nat.add_left_cancel heq
    rw [this, h2] at h1
    exact (congrArg Prod.fst (Option.some.inj h1)).symm
  · intro i hi
    rw [gv, Option.isSome_map] at hi
    by_cases hlt : i < vl
    · left
      rw [get_append, get_new_below (fun _ e => imageOf u d sig (Prod.snd e)) pk vl i hlt, Option.or_none] at hi
      exact hi
    · right
      obtain ⟨j, rfl⟩ := Nat.exists_eq_add_of_le (not_lt.1 hlt)
      rw [get_added uv (fun e : Nat × V3 => imageOf u d sig e.2), Option.isSome_map] at hi
      obtain ⟨e, he⟩ := Option.isSome_iff_exists.1 hi
      obtain ⟨h1, h2, h3⟩ := back j e he
      exact ⟨e.1, e.2, h1, h2, by rw [h3]⟩
  · intro i
    have key : ∀ {α : Type} (x : Data α) (f : Nat × V3 → α), x.map Prod.fst = o.verts.map Prod.fst → Under x vl →
        (get (x ++ pk.mapIdx (fun k e => (vl + k, f e))) i).isSome = (get r.verts i).isSome := by
      intro α x f hx hux
      rw [gv, Option.isSome_map]
      by_cases hlt : i < vl
      · rw [get_append, get_append, get_new_below (fun _ e => f e) pk vl i hlt,
          get_new_below (fun _ e => imageOf u d sig (Prod.snd e)) pk vl i hlt, Option.or_none, Option.or_none,
          ← has_eq_isSome, ← has_eq_isSome, Bool.eq_iff_iff, has_iff, has_iff, hx]
      · obtain ⟨j, rfl⟩ := Nat.exists_eq_add_of_le (not_lt.1 hlt)
        rw [get_added uv (fun e : Nat × V3 => imageOf u d sig e.2), get_added hux, Option.isSome_map, Option.isSome_map]
    rw [e3, e4]
    exact ⟨key s1 (fun e => a e.1) ks us, key v1 (fun e => imageVec u sig (b e.1)) kv uv1⟩
  · intro i x h
    rw [e2]; exact get_old h
  · intro id p h hsel
    refine ⟨cl + (pk.map Prod.fst).idxOf id, under_none uc (Nat.le_add_right _ _), ?_⟩
    rw [e2, get_added' uc (fun k (_ : Nat × V3) => (⟨.vertex, [vl + k], 0, true⟩ : Cell)), pos id p h hsel]; rfl
  · intro i x h
    rw [e2] at h
    by_cases hlt : i < cl
    · left
      rw [get_append, get_new_below (fun k (_ : Nat × V3) => (⟨.vertex, [vl + k], 0, true⟩ : Cell)) pk cl i hlt,
        Option.or_none] at h
      exact h
    · right
      obtain ⟨j, rfl⟩ := Nat.exists_eq_add_of_le (not_lt.1 hlt)
      rw [get_added' uc (fun k (_ : Nat × V3) => (⟨.vertex, [vl + k], 0, true⟩ : Cell)), Option.map_eq_some_iff] at h
      obtain ⟨e, he, rfl⟩ := h
      obtain ⟨h1, h2, h3⟩ := back j e he
      exact ⟨e.1, e.2, h1, h2, by rw [h3]⟩
  · exact ht

/-- what happens to points after mirroring: they are projected on the surface, if one with cells is linked -/
def afterwards (sf : Surface) (w : World) (s : Mirror) : V3 → V3 :=
  match s.surface w with
  | none => id
  | some surf => sf.proj surf

/-- a surface whose search tree can be built -/
def GoodSurface (o : Obj V3) : Prop := TreeOk o ∧ complete o = true

theorem good_skd {o : Obj V3} (h : GoodSurface o) : ∃ x, buildSkd o = some x := by
  unfold buildSkd
  by_cases h1 : o.skd.st = .notSupported
  · rw [if_pos h1]; exact ⟨_, rfl⟩
  · rw [if_neg h1]
    split
    · exact ⟨_, rfl⟩
    · rw [if_neg, if_neg]
      · exact ⟨_, rfl⟩
      · simp [h.2]
      · simp [h.1.allocated (fun h3 => h1 (h.1.supported.2 h3))]

/-- the plane used by an execution -/
def Mirror.prepared (s : Mirror) : Mirror := if s.implicit then s else s.setPlane s.origin s.normal

theorem prepared_plane {s : Mirror} {c n : V3} (h : InForce s c n) :
    ¬ norm2 s.prepared.n ≤ tiny ∧ dot s.prepared.n.unit s.prepared.n.unit = 1 ∧ dot s.prepared.n.unit c + s.prepared.d = 0 ∧
      n = V3.scale (norm2 n) s.prepared.n.unit ∧ 0 < norm2 n := by
  rcases h with ⟨h1, h0, h2, h3⟩ | ⟨h1, rfl, rfl, h2⟩
  · have e : s.prepared = s := by unfold Mirror.prepared; rw [if_pos h1]
    have hn := norm2_one h2.unit
    rw [e, unit_of_unit h2.unit, hn]
    exact ⟨by have := tiny_lt_one; linarith, h2.unit, h3, h2.along,
      lt_of_le_of_ne (Shape.norm2_nonneg n) (fun e => h0 (norm2_eq_zero.1 e.symm))⟩
  · have e : s.prepared = s.setPlane s.origin s.normal := by unfold Mirror.prepared; rw [if_neg (by simp [h1])]
    have h0 : 0 < norm2 s.normal := lt_trans tiny_pos h2
    have hu := unit_dot h0
    have en : s.prepared.n = s.normal.unit := by rw [e]; simp only [Mirror.setPlane]; rw [if_pos h2]
    have ed : s.prepared.d = -1 * dot s.origin s.normal.unit := by rw [e]; simp only [Mirror.setPlane]; rw [if_pos h2]
    rw [en, ed, unit_of_unit hu, norm2_one hu]
    refine ⟨by have := tiny_lt_one; linarith, hu, ?_, (direction_unit (fun hz => ?_)).along, h0⟩
    · simp only [dot]; ring
    · rw [hz] at h0; rw [norm2_eq_zero.2 rfl] at h0; exact lt_irrefl _ h0

theorem prepared_rest (s : Mirror) : s.prepared.cloud = s.cloud ∧ s.prepared.geom = s.geom ∧ s.prepared.insideOut = s.insideOut ∧
    s.prepared.force = s.force ∧ s.prepared.scalar = s.scalar ∧ s.prepared.vector = s.vector ∧ s.prepared.kd = s.kd ∧
    s.prepared.origin = s.origin ∧ s.prepared.normal = s.normal ∧ s.prepared.implicit = true := by
  unfold Mirror.prepared
  split
  · next h => exact ⟨rfl, rfl, rfl, rfl, rfl, rfl, rfl, rfl, rfl, h⟩
  · exact ⟨rfl, rfl, rfl, rfl, rfl, rfl, rfl, rfl, rfl, rfl⟩

theorem clone_cloud {o : Obj V3} (h : GoodCloud o) : ∃ r, clone o = some r ∧ r.type = o.type ∧ r.verts = o.verts ∧
    r.cells = o.cells ∧ r.skd.st = .notSupported := by
  obtain ⟨r, h1, h2, h3, h4, -, -, -, -, -, -, -, -, ht⟩ := C60_clone_partial h.fresh (by rw [h.type]; omega) (by rw [h.type]; omega)
    (by intro c hc; simp [refused, h.type, h.elems c hc]) h.names (fun _ => h.skd) h.kd (fun _ => h.pc)
  exact ⟨r, h1, h2, h3, h4, ht.supported.2 (by rw [h2, h.type])⟩

/-- an execution with a usable plane -/
theorem mirrored_core (sf : Surface) (w : World) (s : Mirror) {g : Nat} {c n : V3} (hg : s.cloud = some g)
    (hc : GoodCloud (w g)) (hsurf : ∀ x, s.surface w = some x → GoodSurface x)
    (p1 : ¬ norm2 s.prepared.n ≤ tiny) (p2 : dot s.prepared.n.unit s.prepared.n.unit = 1)
    (p3 : dot s.prepared.n.unit c + s.prepared.d = 0) (p4 : n = V3.scale (norm2 n) s.prepared.n.unit) (p5 : 0 < norm2 n) :
    ∃ s' r twin, s.execute sf w = some s' ∧ s'.result = some r ∧
      Mirrored (w g) r (fun p => Beyond s (mirrorMargin sf (s.surface w)) c n p ∨ s.force = true) c n (afterwards sf w s)
        (dataAt s.scalar 0) (dataAt s.vector ⟨0, 0, 0⟩) s'.scalarOut s'.vectorOut twin := by
  obtain ⟨o, k1, k2, k3, k4, k5⟩ := clone_cloud hc
  obtain ⟨q1, q2, q3, q4, q5, q6, q7, -, -, -⟩ := prepared_rest s
  have hsf : s.prepared.surface w = s.surface w := by unfold Mirror.surface; rw [q2]
  have hok : Ok o.verts := by rw [k3]; exact hc.verts
  generalize hsig : (if s.insideOut then (-1 : ℝ) else 1) = sig
  have hss : sig * sig = 1 := by rw [← hsig]; split <;> norm_num
  generalize hm : mirrorMargin sf (s.surface w) = margin
  generalize hu : s.prepared.n.unit = u at *
  -- the selection
  have hsel : (fun p => Beyond s margin c n p ∨ s.force = true) =
      fun p => margin < sig * (dot u p + s.prepared.d) ∨ s.force = true := by
    funext p
    have e : sig * dot n (p - c) = norm2 n * (sig * (dot u p + s.prepared.d)) := by
      have : dot n (p - c) = norm2 n * (dot u p - dot u c) := by
        conv_lhs => rw [p4]
        simp only [dot, V3.scale, sub_x, sub_y, sub_z]; ring
      rw [this]
      linear_combination (-(sig * norm2 n)) * p3
    have : Beyond s margin c n p ↔ margin < sig * (dot u p + s.prepared.d) := by
      unfold Beyond
      rw [hsig, e, mul_comm margin]
      exact mul_lt_mul_iff_right₀ p5
    rw [this]
  have hdat : ∀ {α : Type} (input : Option (Data α)) (z : α) (id : Nat) (p : V3), get o.verts id = some p →
      get (copied input (o.verts.map Prod.fst) (zeros z o.verts)) id = some (dataAt input z id) := by
    intro α input z id p h
    exact copied_get input _ _ (zeros_get z h) (mem_map.2 ⟨_, get_some_mem h, rfl⟩)
  have hkey : ∀ {α : Type} (input : Option (Data α)) (z : α),
      (copied input (o.verts.map Prod.fst) (zeros z o.verts)).map Prod.fst = o.verts.map Prod.fst := by
    intro α input z; rw [copied_keys, zeros_keys]
  have hund : ∀ {α : Type} (input : Option (Data α)) (z : α),
      Under (copied input (o.verts.map Prod.fst) (zeros z o.verts)) (labelAbove (o.verts.map Prod.fst)) := by
    intro α input z; unfold Under; rw [hkey]; exact label_under o.verts
  obtain ⟨r, r1, r2, r3, r4, r5, r6, r7⟩ := mirror_loop u s.prepared.d sig margin s.force (dataAt s.scalar 0) (dataAt s.vector ⟨0, 0, 0⟩)
    o.verts ⟨o, labelAbove (o.verts.map Prod.fst), labelAbove (o.cells.map Prod.fst),
      copied s.scalar (o.verts.map Prod.fst) (zeros 0 o.verts), copied s.vector (o.verts.map Prod.fst) (zeros ⟨0, 0, 0⟩ o.verts)⟩
    (fun e he => Verif.Mesh.get_of_mem hok he) (fun e he => hdat _ _ _ _ (Verif.Mesh.get_of_mem hok he))
    (fun e he => hdat _ _ _ _ (Verif.Mesh.get_of_mem hok he)) (label_under _) (label_under _) (hund _ _) (hund _ _) k5
  simp only at r2 r4 r5 r6 r7
  have hokr : Ok r.o.verts := by
    rw [r4]; exact ok_added _ (fun _ e => imageOf u s.prepared.d sig (Prod.snd e)) _ _ hok (label_under _)
  -- what follows the loop
  obtain ⟨o', f1, f2, f3, f4⟩ : ∃ o', finishCloud sf (s.surface w) r.o = some o' ∧ o'.verts = r.o.verts.map (fun x => (x.1, afterwards sf w s x.2)) ∧
        o'.cells = r.o.cells ∧ o'.type = r.o.type := by
    unfold afterwards
    cases hx : s.surface w with
    | none =>
      obtain ⟨o', h⟩ := update_cloud (o := cleanInfo r.o) r3
      have := update_mesh h
      exact ⟨o', h, by rw [this.verts]; simp [cleanInfo], this.cells, this.type⟩
    | some surf =>
      obtain ⟨x, hx⟩ := good_skd (hsurf surf hx)
      obtain ⟨m1, m2, m3, -, -, -, m7⟩ := move_all (sf.proj surf) hokr
      obtain ⟨o', h⟩ := update_cloud (o := cleanInfo (moveAll (sf.proj surf) r.o)) (m7.2 r3)
      have := update_mesh h
      refine ⟨o', by simp only [finishCloud, projectObj, hx, Option.bind_some]; exact h, ?_, ?_, ?_⟩
      · rw [this.verts]; exact m1
      · rw [this.cells]; exact m2
      · rw [this.type]; exact m3
  have hres : ∀ b : Bool, (if b then Mesh.buildKd o' else o').verts = o'.verts ∧ (if b then Mesh.buildKd o' else o').cells = o'.cells ∧
      (if b then Mesh.buildKd o' else o').type = o'.type := by
    intro b
    cases b with
    | false => exact ⟨rfl, rfl, rfl⟩
    | true =>
      simp only [if_true, Mesh.buildKd]
      split
      · exact ⟨rfl, rfl, rfl⟩
      · split <;> exact ⟨rfl, rfl, rfl⟩
  obtain ⟨g1, g2, g3⟩ := hres s.kd
  refine ⟨{ s.prepared with result := some (if s.kd then Mesh.buildKd o' else o'), scalarOut := r.s, vectorOut := r.v },
    if s.kd then Mesh.buildKd o' else o',
    fun id => labelAbove ((w g).verts.map Prod.fst) +
      ((picked u s.prepared.d sig margin s.force (w g).verts).map Prod.fst).idxOf id, ?_, rfl, ?_⟩
  · unfold Mirror.execute
    rw [hg]
    simp only [k1, Option.bind_some]
    rw [show (if s.implicit = true then s else s.setPlane s.origin s.normal) = s.prepared from rfl, if_neg p1, hu, hsf, hm, q3, hsig,
      q4, q5, q6, q7, r1]
    simp only [Option.bind_some]
    rw [f1]; simp [q3, q4, q5, q6, q7]
  · rw [hsel]
    rw [k3] at r4 r5 r6 r7
    rw [k4] at r5
    refine mirrored_of p2 hss p3 p4 hc.verts (label_under _) (label_under _) ?_ ?_ ?_ ?_ ?_ ?_ r6 r7 ?_
    · intro id p h; have := hdat s.scalar 0 id p (by rw [k3]; exact h); rwa [k3] at this
    · intro id p h; have := hdat s.vector ⟨0, 0, 0⟩ id p (by rw [k3]; exact h); rwa [k3] at this
    · have := hkey s.scalar 0; rwa [k3] at this
    · have := hkey s.vector ⟨0, 0, 0⟩; rwa [k3] at this
    · rw [g1, f2, r4]
    · rw [g2, f3, r5]
    · rw [g3, f4, r2, k2]

/-- **C128** for a plane given by coefficients with a unit normal, or by origin and normal: the cloud returned has the
original points, with their ids and data, and one image, with a new id, for every point beyond the margin of the plane
on the side chosen or, with `force`, for every point; scalars of images are those of the points, vectors are mirrored; when
a surface with cells is linked all points are projected on it.  Missing: coefficients with a normal of another length
(`C128_coefficients_fails`). -/
theorem C128_mirrored_partial (sf : Surface) (w : World) (s : Mirror) {g : Nat} {c n : V3} (hg : s.cloud = some g)
    (hc : GoodCloud (w g)) (hp : InForce s c n) (hsurf : ∀ x, s.surface w = some x → GoodSurface x) :
    ∃ s' r twin, s.execute sf w = some s' ∧ s'.result = some r ∧
      Mirrored (w g) r (fun p => Beyond s (mirrorMargin sf (s.surface w)) c n p ∨ s.force = true) c n (afterwards sf w s)
        (dataAt s.scalar 0) (dataAt s.vector ⟨0, 0, 0⟩) s'.scalarOut s'.vectorOut twin := by
  obtain ⟨p1, p2, p3, p4, p5⟩ := prepared_plane hp
  exact mirrored_core sf w s hg hc hsurf p1 p2 p3 p4 p5

end
end Verif.Utils
