import Verif.Vtu.Model
/-!
# Lemmas on the reading and the writing of VTU files

`Nodes` and `Sound` are the specification: the vertices of a cell, and the meshes of `bitpit`.
-/
namespace Verif.Vtu

variable {P : Type}

/-- The vertices of a cell. -/
inductive Nodes (c : Cell) : List Int → Prop
  | plain : c.ty ≠ .polygon → c.ty ≠ .polyhedron → Nodes c c.conn
  | polygon (vs : List Int) : c.ty = .polygon → c.conn = (vs.length : Int) :: vs → Nodes c vs
  | polyhedron (L : List (List Int)) : c.ty = .polyhedron →
      c.conn = (L.length : Int) :: L.flatMap (fun f => (f.length : Int) :: f) → Nodes c L.flatten

/-- A mesh: ids are not repeated, cells have a type and vertices, all in the mesh. -/
structure Sound (M : Patch P) : Prop where
  verts : (M.verts.map Prod.fst).Nodup
  cells : (M.cells.map Cell.id).Nodup
  types : ∀ c ∈ M.cells, c.ty ≠ .undefined
  shape : ∀ c ∈ M.cells, ∃ vs, Nodes c vs ∧ vs ≠ [] ∧ ∀ v ∈ vs, v ∈ M.verts.map Prod.fst

theorem ofNum_num (t : Ty) : Ty.ofNum t.num = t := by cases t <;> decide

theorem streamIds_face (f r : List Int) : streamIds f.length (f ++ r) = f ++ streamIds 0 r := by
  induction f with
  | nil => rfl
  | cons v f ih => simp [streamIds, ih]

theorem streamIds_faces (L : List (List Int)) :
    streamIds 0 (L.flatMap fun f => (f.length : Int) :: f) = L.flatten := by
  induction L with
  | nil => rfl
  | cons f L ih => simp [streamIds, streamIds_face, ih]

theorem renumber_face (g : Int → Int) (f r : List Int) :
    renumber g f.length (f ++ r) = f.map g ++ renumber g 0 r := by
  induction f with
  | nil => rfl
  | cons v f ih => simp [renumber, ih]

theorem renumber_faces (g : Int → Int) (L : List (List Int)) :
    renumber g 0 (L.flatMap fun f => (f.length : Int) :: f)
      = L.flatMap fun f => (f.length : Int) :: f.map g := by
  induction L with
  | nil => rfl
  | cons f L ih => simp [renumber, renumber_face, ih]

theorem renumber_length (g : Int → Int) (l : List Int) : ∀ n, (renumber g n l).length = l.length := by
  induction l with
  | nil => intro n; cases n <;> rfl
  | cons v l ih => intro n; cases n <;> simp [renumber, ih]

theorem remap_face (h : Int → Int) (f r s : List Int) (hr : remap h 0 r = .ok s) :
    remap h f.length (f ++ r) = .ok (f.map h ++ s) := by
  induction f with
  | nil => exact hr
  | cons v f ih =>
    show (do let s ← remap h f.length (f ++ r); Except.ok (h v :: s)) = _
    rw [ih]; rfl

theorem remap_faces (g h : Int → Int) (L : List (List Int)) (hv : ∀ v ∈ L.flatten, h (g v) = v) :
    remap h 0 (L.flatMap fun f => (f.length : Int) :: f.map g)
      = .ok (L.flatMap fun f => (f.length : Int) :: f) := by
  induction L with
  | nil => rfl
  | cons f L ih =>
    have h1 := ih fun v hm => hv v (by simp only [List.flatten_cons, List.mem_append]; exact .inr hm)
    have h2 := remap_face h (f.map g) _ _ h1
    have h3 : (f.map g).map h = f := by
      rw [List.map_map]
      conv_rhs => rw [← List.map_id f]
      exact List.map_congr_left fun v hm => hv v (by simp [hm])
    rw [List.length_map, h3] at h2
    rw [List.flatMap_cons, List.flatMap_cons, List.cons_append, List.cons_append, remap, if_neg (by omega), Int.toNat_natCast, h2]
    rfl

theorem nodes_ids {c : Cell} {vs : List Int} (h : Nodes c vs) : ∀ v, v ∈ c.ids ↔ v ∈ vs := by
  intro v
  cases h with
  | plain h1 h2 =>
    obtain ⟨a, t, k, p⟩ := c
    cases t <;> simp_all [Cell.ids]
  | polygon vs h1 h2 => simp [Cell.ids, h1, h2]
  | polyhedron L h1 h2 => simp only [Cell.ids, h1, h2, List.tail_cons, streamIds_faces, List.mem_dedup]

theorem written_sub (M : Patch P) : (written M).Sublist M.verts := List.filter_sublist

theorem mem_written {M : Patch P} {c : Cell} (hc : c ∈ M.cells) {v : Int} (hv : v ∈ c.ids)
    (hk : v ∈ M.verts.map Prod.fst) : v ∈ (written M).map Prod.fst := by
  obtain ⟨w, hw, rfl⟩ := List.mem_map.1 hk
  exact List.mem_map.2 ⟨w, List.mem_filter.2
    ⟨hw, List.any_eq_true.2 ⟨c, hc, by simpa using hv⟩⟩, rfl⟩

theorem mapVert_vtkId {l : List Int} {v : Int} (hv : v ∈ l) : mapVert l (l.idxOf v : Nat) = v := by
  have h := List.idxOf_lt_length_of_mem hv
  rw [mapVert, if_pos (by omega), Int.toNat_natCast, List.getD_eq_getElem?_getD,
    List.getElem?_eq_getElem h]
  exact List.getElem_idxOf h

/-! ## The loop of the reader -/

/-- Offsets which a cell without faces may have: those after its entries, or none. -/
inductive FaceOffs (e : Cell → List Int) : Nat → List Cell → List Int → Prop
  | nil (k : Nat) : FaceOffs e k [] []
  | cons {k : Nat} {c : Cell} {cs : List Cell} {os : List Int} : e c ≠ [] →
      FaceOffs e (k + (e c).length) cs os →
      FaceOffs e k (c :: cs) (((k + (e c).length : Nat) : Int) :: os)
  | skip {k : Nat} {c : Cell} {cs : List Cell} {os : List Int} : e c = [] → c.ty ≠ .polyhedron →
      FaceOffs e k cs os → FaceOffs e k (c :: cs) (-1 :: os)

theorem slice_drop (l a b : List Int) (k : Nat) (h : l.drop k = a ++ b) (hk : k ≤ l.length) :
    slice l k ((k : Int) + a.length) = .ok a := by
  have hl := congrArg List.length h
  rw [List.length_drop, List.length_append] at hl
  by_cases ha : a = []
  · subst ha
    simp [slice]
  · have hp := List.length_pos_iff.2 ha
    rw [slice, if_neg (by omega), if_neg (by omega), if_neg (by omega)]
    have e1 : ((k : Int) + a.length - k).toNat = a.length := by omega
    rw [e1, Int.toNat_natCast, h, List.take_left]

theorem drop_add {α : Type} {l a b : List α} {k : Nat} (h : l.drop k = a ++ b) :
    l.drop (k + a.length) = b := by
  rw [← List.drop_drop, h, List.drop_left]

theorem bound {α : Type} {l a b : List α} {k : Nat} (h : l.drop k = a ++ b) (hk : k ≤ l.length) :
    k + a.length ≤ l.length := by
  have hl := congrArg List.length h
  rw [List.length_drop, List.length_append] at hl
  omega

/-- What the faces of a file are to be. -/
def FacesOk (R : Raw P) (g : Int → Int) (e : Cell → List Int) (cs : List Cell) (i pf : Nat) : Prop :=
  (∀ c ∈ cs, c.ty ≠ .polyhedron) ∨
  (R.hasFaces = true ∧ pf ≤ R.faces.length ∧ FaceOffs e pf cs (R.faceoffs.drop i) ∧
    R.faces.drop pf = cs.flatMap e ∧
    ∀ c ∈ cs, c.ty = .polyhedron → e c = c.conn.take 1 ++ renumber g 0 c.conn.tail)

theorem facesOk_next {R : Raw P} {g : Int → Int} {e : Cell → List Int} {c : Cell} {cs : List Cell}
    {i pf : Nat} (h : FacesOk R g e (c :: cs) i pf) :
    ∃ pf' : Nat, (if R.hasFaces ∧ 0 < R.faceoffs.getD i 0 then R.faceoffs.getD i 0 else (pf : Int)) = pf' ∧
      FacesOk R g e cs (i + 1) pf' := by
  rcases h with h | ⟨h1, h2, h3, h4, h5⟩
  · by_cases hc : R.hasFaces ∧ 0 < R.faceoffs.getD i 0
    · exact ⟨(R.faceoffs.getD i 0).toNat, by rw [if_pos hc]; omega,
        .inl fun c hc => h c (List.mem_cons_of_mem _ hc)⟩
    · exact ⟨pf, by rw [if_neg hc], .inl fun c hc => h c (List.mem_cons_of_mem _ hc)⟩
  · cases hd : R.faceoffs.drop i with
    | nil => rw [hd] at h3; cases h3
    | cons o os =>
      have hi : R.faceoffs.getD i 0 = o := by
        have h6 := List.getElem?_drop (xs := R.faceoffs) (i := i) (j := 0)
        rw [hd, List.getElem?_cons_zero, Nat.add_zero] at h6
        rw [List.getD_eq_getElem?_getD, ← h6]; rfl
      have hn : R.faceoffs.drop (i + 1) = os := by rw [← List.drop_drop, hd]; rfl
      rw [hd] at h3
      rw [hi]
      cases h3 with
      | cons hne ho =>
        have hp := List.length_pos_iff.2 hne
        refine ⟨pf + (e c).length, by rw [if_pos ⟨h1, by omega⟩], .inr ⟨h1, ?_, ?_, ?_, ?_⟩⟩
        · exact bound (by simpa using h4) h2
        · rw [hn]; exact ho
        · exact drop_add (by simpa using h4)
        · exact fun c hc => h5 c (List.mem_cons_of_mem _ hc)
      | skip he hty ho =>
        refine ⟨pf, by rw [if_neg (by omega)], .inr ⟨h1, h2, ?_, ?_, ?_⟩⟩
        · rw [hn]; exact ho
        · simpa [he] using h4
        · exact fun c hc => h5 c (List.mem_cons_of_mem _ hc)

theorem facesOk_here {R : Raw P} {g : Int → Int} {e : Cell → List Int} {c : Cell} {cs : List Cell}
    {i pf : Nat} (h : FacesOk R g e (c :: cs) i pf) (hc : c.ty = .polyhedron) :
    R.hasFaces = true ∧
      slice R.faces pf (R.faceoffs.getD i 0) = .ok (c.conn.take 1 ++ renumber g 0 c.conn.tail) := by
  rcases h with h | ⟨h1, h2, h3, h4, h5⟩
  · exact (h c (by simp) hc).elim
  · refine ⟨h1, ?_⟩
    cases hd : R.faceoffs.drop i with
    | nil => rw [hd] at h3; cases h3
    | cons o os =>
      have hi : R.faceoffs.getD i 0 = o := by
        have h6 := List.getElem?_drop (xs := R.faceoffs) (i := i) (j := 0)
        rw [hd, List.getElem?_cons_zero, Nat.add_zero] at h6
        rw [List.getD_eq_getElem?_getD, ← h6]; rfl
      rw [hd] at h3
      rw [hi, ← h5 c (by simp) hc]
      cases h3 with
      | cons hne ho =>
        rw [Int.natCast_add]
        exact slice_drop _ _ (cs.flatMap e) _ (by simpa using h4) h2
      | skip he hty ho => exact (hty hc).elim

theorem map_back {g h : Int → Int} {l : List Int} (hv : ∀ v ∈ l, h (g v) = v) : (l.map g).map h = l := by
  rw [List.map_map]
  conv_rhs => rw [← List.map_id l]
  exact List.map_congr_left hv

theorem cellConn_ok (R : Raw P) (vids : List Int) (g : Int → Int) (e : Cell → List Int) (c : Cell)
    (cs : List Cell) (i pc pf : Nat) (vs : List Int) (hn : Nodes c vs)
    (hv : ∀ v ∈ vs, mapVert vids (g v) = v) (hf : FacesOk R g e (c :: cs) i pf)
    (hconn : R.conn.drop pc = (c :: cs).flatMap fun c => c.ids.map g) (hpc : pc ≤ R.conn.length) :
    cellConn R vids c.ty i pc pf ((pc : Int) + c.ids.length) = .ok c.conn := by
  have hs : slice R.conn pc ((pc : Int) + c.ids.length) = .ok (c.ids.map g) := by
    have := slice_drop R.conn (c.ids.map g) (cs.flatMap fun c => c.ids.map g) pc (by simpa using hconn) hpc
    rwa [List.length_map] at this
  cases hn with
  | plain h1 h2 =>
    have hid : c.ids = c.conn := by
      obtain ⟨a, t, k, p⟩ := c
      cases t <;> simp_all [Cell.ids]
    rw [hid] at hs ⊢
    have hb := map_back hv
    have hgo : (do let s ← slice R.conn pc ((pc : Int) + c.conn.length)
                   Except.ok (s.map (mapVert vids))) = Except.ok (ε := Err) c.conn := by
      rw [hs]; show Except.ok _ = _; rw [hb]
    rw [cellConn]
    · exact hgo
    · exact h2
    · exact h1
  | polygon vs h1 h2 =>
    have hid : c.ids = vs := by simp [Cell.ids, h1, h2]
    rw [hid] at hs ⊢
    rw [h1, cellConn, hs]
    show Except.ok _ = _
    rw [map_back hv, h2]
    congr 2
    omega
  | polyhedron L h1 h2 =>
    obtain ⟨q1, q2⟩ := facesOk_here hf h1
    rw [h1, cellConn, if_pos q1, q2, h2, List.tail_cons, renumber_faces]
    show (do let t ← remap (mapVert vids) 0 (L.flatMap fun f : List Int => (f.length : Int) :: f.map g)
             Except.ok (((L.length : Int) :: L.flatMap fun f : List Int => (f.length : Int) :: f.map g).take 1 ++ t)) = _
    rw [remap_faces _ _ _ hv]
    rfl

theorem loop_ok (R : Raw P) (vids : List Int) (g : Int → Int) (e : Cell → List Int) :
    ∀ (cs : List Cell) (i pc pf : Nat),
      (∀ c ∈ cs, ∃ vs, Nodes c vs ∧ ∀ v ∈ vs, mapVert vids (g v) = v) →
      R.types.drop i = cs.map Cell.ty →
      (R.conn.drop pc = cs.flatMap fun c => c.ids.map g) → pc ≤ R.conn.length →
      FacesOk R g e cs i pf →
      (∀ k c, cs[k]? = some c →
        c.id = (if R.cid.dedup.length = R.offsets.length then R.cid.getD (i + k) 0 else (i + k : Nat)) ∧
        c.pid = (if R.pid.length = R.offsets.length then R.pid.getD (i + k) 0 else 0)) →
      loop R vids (offsetsFrom pc cs) i pc pf = .ok cs := by
  intro cs
  induction cs with
  | nil => intros; rfl
  | cons c cs ih =>
    intro i pc pf hsh hty hconn hpc hf hid
    obtain ⟨vs, hn, hv⟩ := hsh c (by simp)
    have ht : R.types[i]? = some c.ty := by
      have h6 := List.getElem?_drop (xs := R.types) (i := i) (j := 0)
      rw [hty, Nat.add_zero] at h6
      exact h6.symm
    obtain ⟨pf', hp1, hp2⟩ := facesOk_next hf
    have hlen : (c.ids.map g).length = c.ids.length := List.length_map _
    have hb := bound (a := c.ids.map g) (b := cs.flatMap fun c => c.ids.map g) (by simpa using hconn) hpc
    have hd := drop_add (a := c.ids.map g) (b := cs.flatMap fun c => c.ids.map g) (by simpa using hconn)
    rw [hlen] at hb hd
    have hrest := ih (i + 1) (pc + c.ids.length) pf' (fun c hc => hsh c (List.mem_cons_of_mem _ hc))
      (by rw [← List.drop_drop, hty]; rfl) hd hb hp2
      (fun k d hk => by
        have := hid (k + 1) d (by simpa using hk)
        rwa [show i + (k + 1) = i + 1 + k by omega] at this)
    have h0 := hid 0 c rfl
    rw [Nat.add_zero] at h0
    rw [offsetsFrom, loop, ht]
    show (do let conn ← cellConn R vids c.ty i pc pf ((pc : Int) + c.ids.length)
             let rest ← loop R vids (offsetsFrom ((pc : Int) + c.ids.length) cs) (i + 1)
               ((pc : Int) + c.ids.length)
               (if R.hasFaces ∧ 0 < R.faceoffs.getD i 0 then R.faceoffs.getD i 0 else (pf : Int))
             Except.ok ((⟨if R.cid.dedup.length = R.offsets.length then R.cid.getD i 0 else i, c.ty, conn,
               if R.pid.length = R.offsets.length then R.pid.getD i 0 else 0⟩ : Cell) :: rest)) = _
    rw [cellConn_ok R vids g e c cs i pc pf vs hn hv hf hconn hpc, hp1]
    rw [Int.natCast_add] at hrest
    show (do let rest ← loop R vids (offsetsFrom ((pc : Int) + c.ids.length) cs) (i + 1)
               ((pc : Int) + c.ids.length) pf'
             Except.ok ((⟨if R.cid.dedup.length = R.offsets.length then R.cid.getD i 0 else i, c.ty, c.conn,
               if R.pid.length = R.offsets.length then R.pid.getD i 0 else 0⟩ : Cell) :: rest)) = _
    rw [hrest, ← h0.1, ← h0.2]
    rfl

theorem offsetsFrom_length (k : Int) (cs : List Cell) : (offsetsFrom k cs).length = cs.length := by
  induction cs generalizing k with
  | nil => rfl
  | cons c cs ih => simp [offsetsFrom, ih]

theorem faceOffsetsFrom_ok (g : Int → Int) (cs : List Cell) (k : Nat) (h : ∀ c ∈ cs, faceEntries g c ≠ []) :
    FaceOffs (faceEntries g) k cs (faceOffsetsFrom g k cs) := by
  induction cs generalizing k with
  | nil => exact .nil k
  | cons c cs ih =>
    rw [faceOffsetsFrom, ← Int.natCast_add]
    exact .cons (h c (by simp)) (ih _ fun c hc => h c (List.mem_cons_of_mem _ hc))

theorem faceOffsetsFrom_length (g : Int → Int) (cs : List Cell) :
    ∀ k, (faceOffsetsFrom g k cs).length = cs.length := by
  induction cs with
  | nil => intro k; rfl
  | cons c cs ih => intro k; simp [faceOffsetsFrom, ih]

theorem length_flatMap_le {α β : Type} (f : α → List β) (cs : List α) (h : ∀ c ∈ cs, f c ≠ []) :
    cs.length ≤ (cs.flatMap f).length := by
  induction cs with
  | nil => simp
  | cons c cs ih =>
    have h1 := List.length_pos_iff.2 (h c (by simp))
    have h2 := ih fun c hc => h c (List.mem_cons_of_mem _ hc)
    simp only [List.flatMap_cons, List.length_append, List.length_cons]
    omega

theorem nodes_nonempty {c : Cell} {vs : List Int} (h : Nodes c vs) (hne : vs ≠ []) : c.ids ≠ [] := by
  obtain ⟨v, hv⟩ := List.exists_mem_of_ne_nil _ hne
  exact List.ne_nil_of_mem ((nodes_ids h v).2 hv)

end Verif.Vtu
