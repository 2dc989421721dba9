import Verif.Spec.Xdmf
import Verif.Lemmas.VtkhdfRead
import Verif.Lemmas.VtkhdfWrite
import Verif.Props.C09_DistributeData
/-!
# Data items of XDMF files
-/
namespace Verif.Xdmf
open Verif.Spec Verif.Spec.Xdmf Verif.CellPerm Verif.Std
open Verif.Connectivity (CellType)
open Verif.LocalRange (localRange)
open Verif.Vtkhdf (writeDataset readDataset writeDataset_concat readDataset_slice range_le part parts_all vtkRow vtkRow_length localToGlobal_eq)
open Verif.Offsets (excl)

variable {α β V : Type}

/-! ## Writing and reading items -/

theorem sum_eq_excl (parts : List (List β)) : (parts.map List.length).sum = excl (fun r => (parts.getD r []).length) parts.length := by
  rw [excl]
  congr 1
  apply List.ext_getElem
  · simp
  · intro i h1 h2
    simp only [List.length_map] at h1
    simp only [List.getElem_map, List.getElem_range]
    rw [getD_at _ _ h1]

theorem flatten_eq_range (parts : List (List β)) : ((List.range parts.length).flatMap fun r => parts.getD r []) = parts.flatten := by
  rw [List.flatMap_def]
  congr 1
  apply List.ext_getElem
  · simp
  · intro i h1 h2
    simp only [List.getElem_map, List.getElem_range]
    rw [getD_at _ _ h2]

theorem addDataItem_ok (width : Nat) (parts : List (List (List β))) :
    addDataItem width parts = .ok ⟨[parts.flatten.length, width], [parts.flatten.length, width], parts.flatten⟩ := by
  have hn : (parts.map List.length).sum = parts.flatten.length := by rw [List.length_flatten]
  have hz : (parts.zipIdx.map fun p => (((excl (fun r => (parts.getD r []).length) p.2 : Nat) : Int),
      ((excl (fun r => (parts.getD r []).length) p.2 + p.1.length : Nat) : Int), p.1)) =
      (List.range parts.length).map fun r => (((excl (fun r => (parts.getD r []).length) r : Nat) : Int),
        ((excl (fun r => (parts.getD r []).length) r + (parts.getD r []).length : Nat) : Int), parts.getD r []) := by
    apply List.ext_getElem
    · simp
    · intro i h1 h2
      simp only [List.length_map, List.length_zipIdx] at h1
      simp only [List.getElem_map, List.getElem_range, List.getElem_zipIdx, Nat.zero_add]
      rw [getD_at _ _ h1]
  have := writeDataset_concat ([] : List β) 0 parts.length (fun r => (parts.getD r []).length) (fun r => parts.getD r [])
    (fun r => ((excl (fun r => (parts.getD r []).length) r : Nat) : Int))
    (fun r => ((excl (fun r => (parts.getD r []).length) r + (parts.getD r []).length : Nat) : Int))
    (by intro r _; rw [Nat.zero_add]) (by intro r _; rw [Nat.zero_add]) (by intro r _; exact le_refl _) ((parts.map List.length).sum : Nat)
    (by rw [Nat.zero_add, sum_eq_excl])
  rw [addDataItem]
  simp only [hz]
  rw [this]
  simp only [bind, Except.bind, pure, Except.pure, List.replicate_zero, List.nil_append, List.take_length, flatten_eq_range, hn]

theorem getDataset_ok (width : Nat) (rows : List (List β)) (h : rows ≠ []) (Q q : Nat) (hq : q < Q) :
    getDataset ⟨[rows.length, width], [rows.length, width], rows⟩ q Q = .ok (part rows Q q).flatten := by
  have h0 : rows.length ≠ 0 := by simpa using h
  obtain ⟨h1, h2⟩ := range_le Q rows.length q hq
  simp only [getDataset, datasetRange, List.headD_cons, if_neg h0, if_true, bind, Except.bind]
  rw [readDataset_slice _ _ _ h1 h2]
  rfl

theorem part_sub (l : List β) (Q q : Nat) (x : β) (h : x ∈ part l Q q) : x ∈ l := List.mem_of_mem_drop (List.mem_of_mem_take h)

theorem flatten_length (L : List (List β)) (n : Nat) (h : ∀ row ∈ L, row.length = n) : L.flatten.length = L.length * n := by
  induction L with
  | nil => simp
  | cons a L ih =>
    rw [List.flatten_cons, List.length_append, h a (by simp), ih (fun r hr => h r (by simp [hr])), List.length_cons]
    ring

/-- Rows of an array. -/
theorem flatten_at (L : List (List β)) (n : Nat) (h : ∀ row ∈ L, row.length = n) (c : Nat) (row : List β) (hc : L[c]? = some row) :
    (L.flatten.drop (c * n)).take n = row := by
  induction L generalizing c with
  | nil => simp at hc
  | cons a L ih =>
    have ha := h a (by simp)
    cases c with
    | zero =>
      simp only [List.getElem?_cons_zero, Option.some.injEq] at hc
      subst hc
      rw [Nat.zero_mul, List.drop_zero, List.flatten_cons, List.take_left' ha]
    | succ c =>
      rw [List.flatten_cons, show (c + 1) * n = n + c * n by ring, ← List.drop_drop, List.drop_left' ha]
      exact ih (fun r hr => h r (by simp [hr])) c (by simpa using hc)

theorem cut_flatten (L : List (List β)) (n : Nat) (h : ∀ row ∈ L, row.length = n) : cut L.flatten L.length n = L := by
  apply List.ext_getElem
  · simp [cut]
  · intro i h1 h2
    simp only [cut, List.getElem_map, List.getElem_range]
    exact flatten_at L n h i _ (List.getElem?_eq_getElem h2)

theorem readVtk_rows (t : CellType) (n : Nat) (p : List Nat) (hp : permVtk t n = .ok p) (hl : p.length = n) (hlt : ∀ j ∈ p, j < n)
    (L : List (List Int)) (h : ∀ row ∈ L, row.length = n) : readVtk L.flatten L.length n t = .ok (L.map (vtkRow p)).flatten := by
  have hL := flatten_length L n h
  simp only [readVtk, hp, bind, Except.bind, applyPermutation]
  rw [if_neg (by simpa using hL), if_neg (by simp [hl]),
    mapM_ok_map _ _ (fun o => o.getD 0)]
  · congr 1
    rw [List.map_flatMap, List.flatMap_def]
    congr 1
    apply List.ext_getElem
    · simp
    · intro c h1 h2
      simp only [List.length_map] at h2
      simp only [List.getElem_map, List.getElem_range]
      rw [flatten_at L n h c _ (List.getElem?_eq_getElem h2)]
      apply List.ext_getElem
      · simp [vtkRow, hl]
      · intro i h3 h4
        simp only [vtkRow_length] at h4
        simp only [vtkRow, List.getElem_map, List.getElem_range]
        rw [getD_at p 0 h4, List.getD_eq_getElem?_getD]
  · intro o ho
    simp only [List.mem_flatMap, List.mem_map, List.mem_range] at ho
    obtain ⟨c, hc, i, hi, rfl⟩ := ho
    rw [flatten_at L n h c _ (List.getElem?_eq_getElem hc), List.getElem?_eq_getElem]
    · rfl
    · rw [h _ (List.getElem_mem _), getD_at p 0 (by omega)]
      exact hlt _ (List.getElem_mem _)

/-! ## Tables -/

/-- What is needed of the tables of a type. -/
structure Known (t : CellType) (n : Nat) (p m : List Nat) : Prop where
  perm : permVtk t n = .ok p
  map : transpose p = .ok m
  lenP : p.length = n
  lenM : m.length = n
  ltP : ∀ j ∈ p, j < n
  ltM : ∀ j ∈ m, j < n
  back : ∀ i < n, m.getD (p.getD i 0) 0 = i
  permM : m.Perm (List.range n)
  vertices : (p.take (numVertices t)).Perm (List.range (numVertices t))
  enough : numVertices t ≤ n
  order : n ≤ 65536

/-- Computable form. -/
def knownCheck (t : CellType) (n : Nat) : Bool :=
  match permVtk t n with
  | .error _ => false
  | .ok p => match transpose p with
    | .error _ => false
    | .ok m => decide (p.length = n) && decide (m.length = n) && p.all (fun j => decide (j < n)) && m.all (fun j => decide (j < n)) &&
      (List.range n).all (fun i => decide (m.getD (p.getD i 0) 0 = i)) && m.isPerm (List.range n) &&
      (p.take (numVertices t)).isPerm (List.range (numVertices t)) && decide (numVertices t ≤ n) && decide (n ≤ 65536)

theorem knownCheck_sound (t : CellType) (n : Nat) (h : knownCheck t n = true) : ∃ p m, Known t n p m := by
  unfold knownCheck at h
  cases hp : permVtk t n with
  | error e => rw [hp] at h; cases h
  | ok p =>
    rw [hp] at h
    cases hm : transpose p with
    | error e => simp only [hm] at h; cases h
    | ok m =>
      simp only [hm, Bool.and_eq_true, decide_eq_true_eq, List.all_eq_true, List.isPerm_iff, List.mem_range] at h
      obtain ⟨⟨⟨⟨⟨⟨⟨⟨h1, h2⟩, h3⟩, h4⟩, h5⟩, h6⟩, h7⟩, h8⟩, h9⟩ := h
      exact ⟨p, m, hp, hm, h1, h2, h3, h4, h5, h6, h7, h8, h9⟩

theorem known_all : (supported.all fun x => knownCheck x.1 x.2.1) = true := by decide +kernel

theorem known (t : CellType) (n d : Nat) (h : (t, n, d) ∈ supported) : ∃ p m, Known t n p m :=
  knownCheck_sound t n (List.all_eq_true.mp known_all _ h)

theorem known_name (t : CellType) (n d : Nat) (h : (t, n, d) ∈ supported) :
    ∃ name, vtkCellTypeStr t n = .ok name ∧ getCellType name = .ok (t, d) := by
  simp only [supported, List.mem_cons, Prod.mk.injEq, List.not_mem_nil, or_false] at h
  rcases h with h | h | h | h | h | h | h | h | h | h | h | h | h | h <;> obtain ⟨rfl, rfl, rfl⟩ := h <;> exact ⟨_, rfl, rfl⟩

theorem vtkRow_back {t : CellType} {n : Nat} {p m : List Nat} (K : Known t n p m) (row : List Int) (h : row.length = n) :
    vtkRow p (vtkRow m row) = row := by
  apply List.ext_getElem
  · rw [vtkRow_length, K.lenP, h]
  · intro i h1 h2
    have hi : i < n := by omega
    have hpi : i < p.length := by rw [K.lenP]; omega
    have hlt : p.getD i 0 < n := by rw [getD_at _ _ hpi]; exact K.ltP _ (List.getElem_mem _)
    have hb := K.back i hi
    simp only [vtkRow, List.getElem_map]
    rw [← getD_at p 0 hpi, getD_at (m.map _) 0 (by rw [List.length_map, K.lenM]; exact hlt), List.getElem_map,
      ← getD_at m 0 (by rw [K.lenM]; exact hlt), hb, getD_at _ _ h2]

/-! ## Rows of entities -/

theorem nodeRow_ok (m : Mesh α) (r n : Nat) (vm ed xs : List Nat) (hed : ed.length = n) (hm : vm.length = n) (hlt : ∀ j ∈ vm, j < n)
    (hx : ∀ d ∈ ed, d < xs.length) (hg : ∀ v ∈ xs, ∃ g, globalOf m.geom r v = some g) :
    nodeRow (m.geom.map r) vm ed xs = some (vtkRow vm (globalRow m r (ed.map fun d => xs.getD d 0))) := by
  have key : ∀ i ∈ List.range ed.length, (do
      let k ← vm[i]?
      let d ← ed[k]?
      let v ← xs[d]?
      let n ← (m.geom.map r).localToGlobal v
      some (n : Int)) = some ((globalRow m r (ed.map fun d => xs.getD d 0)).getD (vm.getD i 0) 0) := by
    intro i hi
    have hi : i < vm.length := by rw [hm, ← hed]; exact List.mem_range.1 hi
    have h1 : vm[i]? = some vm[i] := List.getElem?_eq_getElem hi
    have h2 : vm[i] < ed.length := by rw [hed]; exact hlt _ (List.getElem_mem _)
    have h3 : ed[vm[i]]? = some ed[vm[i]] := List.getElem?_eq_getElem h2
    have h4 := hx _ (List.getElem_mem h2)
    have h5 : xs[ed[vm[i]]]? = some xs[ed[vm[i]]] := List.getElem?_eq_getElem h4
    obtain ⟨g, h6⟩ := hg _ (List.getElem_mem h4)
    simp only [h1, h3, h5, localToGlobal_eq, h6, Option.bind_eq_bind, Option.bind_some]
    rw [getD_at vm 0 hi, getD_at (globalRow m r _) 0 (by simpa [globalRow] using h2)]
    simp only [globalRow, List.getElem_map]
    rw [getD_at xs 0 h4, h6]; rfl
  rw [nodeRow, Verif.Props.mapM_some _ _ _ key]
  congr 1
  apply List.ext_getElem
  · simp [vtkRow, hed, hm]
  · intro i h1 h2
    simp only [vtkRow, List.getElem_map, List.getElem_range]
    rw [vtkRow_length] at h2
    rw [getD_at vm 0 h2]

end Verif.Xdmf
