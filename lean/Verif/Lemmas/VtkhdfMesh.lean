import Verif.Lemmas.VtkhdfRead
/-!
# Reading a mesh from a VTKHDF file on all processes
-/
namespace Verif.Vtkhdf
open Verif.Spec Verif.CellPerm Verif.Std
open Verif.Connectivity (CellType)
open Verif.LocalRange (localRange)

variable {α : Type}

/-- Number of entries of the connectivity before a cell. -/
def before (cs : List (Nat × List Int)) (c : Nat) : Nat := ((cs.take c).map fun x => x.2.length).sum

theorem before_add (cs : List (Nat × List Int)) (a j : Nat) : before cs (a + j) = before cs a + before (cs.drop a) j := by
  rw [before, List.take_add, List.map_append, List.sum_append]
  rfl

theorem before_take (cs : List (Nat × List Int)) (n j : Nat) (h : j ≤ n) : before (cs.take n) j = before cs j := by
  rw [before, List.take_take, Nat.min_eq_left h, before]

theorem before_succ (cs : List (Nat × List Int)) (j : Nat) (c : Nat × List Int) (h : cs[j]? = some c) :
    before cs (j + 1) = before cs j + c.2.length := by
  rw [before, List.take_add_one, h]
  simp [before]

theorem offsets_slice (f : File α) (cs : List (Nat × List Int)) (h : Describes f cs) (a b : Nat) (hab : a ≤ b) (hb : b ≤ cs.length) :
    readDataset f.offsets (a : Int) ((b : Int) + 1) = .ok ((List.range (b - a + 1)).map fun i => ((before cs (a + i) : Nat) : Int)) := by
  have := readDataset_slice f.offsets a (b + 1) (by omega) (by rw [h.length]; omega)
  push_cast at this
  rw [this]
  congr 1
  apply List.ext_getElem?
  intro i
  rw [List.getElem?_take, List.getElem?_map]
  by_cases hi : i < b - a + 1
  · rw [if_pos (by omega), List.getElem?_drop, h.offsets (a + i) (by omega), List.getElem?_range hi]
    rfl
  · rw [if_neg (by omega), List.getElem?_eq_none (by simp; omega)]
    rfl

/-- What one process has read of the types. -/
def local3 (cs : List (Nat × List Int)) (Q q : Nat) : List Nat × List Nat × List Int :=
  ((part cs Q q).map Prod.fst, (part cs Q q).map fun c => (kindOf c).2,
    (List.range ((part cs Q q).length + 1)).map fun i =>
      ((before cs ((localRange q cs.length Q).1 + i) : Nat) : Int))

theorem part_length (cs : List (Nat × List Int)) (Q q : Nat) (hq : q < Q) :
    (part cs Q q).length = (localRange q cs.length Q).2 - (localRange q cs.length Q).1 := by
  have := range_le Q cs.length q hq
  rw [part, List.length_take, List.length_drop]
  omega

theorem part_get (cs : List (Nat × List Int)) (Q q i : Nat) (c : Nat × List Int) (h : (part cs Q q)[i]? = some c) :
    cs[(localRange q cs.length Q).1 + i]? = some c := by
  rw [part, List.getElem?_take] at h
  split at h
  · rwa [List.getElem?_drop] at h
  · cases h

theorem part_mem (cs : List (Nat × List Int)) (Q q : Nat) (c : Nat × List Int) (h : c ∈ part cs Q q) : c ∈ cs :=
  List.mem_of_mem_drop (List.mem_of_mem_take h)

theorem readTypes_ok (f : File α) (cs : List (Nat × List Int)) (h : Describes f cs) (hr : ∀ c ∈ cs, ∃ t d, Readable c t d)
    (Q q : Nat) (hq : q < Q) : readTypes f Q q = .ok (local3 cs Q q) := by
  have hlen : f.types.length = cs.length := by rw [h.types, List.length_map]
  obtain ⟨h1, h2⟩ := range_le Q cs.length q hq
  have hpl := part_length cs Q q hq
  have ht : readDataset f.types ((localRange q cs.length Q).1 : Int) ((localRange q cs.length Q).2 : Int) = .ok ((part cs Q q).map Prod.fst) := by
    rw [readDataset_slice _ _ _ h1 (by omega), h.types, ← List.map_drop, ← List.map_take]
    rfl
  have ho := offsets_slice f cs h _ _ h1 h2
  simp only [readTypes, hlen, ht, ho, bind, Except.bind]
  rw [mapM_ok_map _ _ (fun i => (kindOf ((part cs Q q).getD i (0, []))).2)]
  · simp only [pure, Except.pure, local3, hpl]
    congr 3
    rw [List.length_map]
    have := map_range_take (part cs Q q) (part cs Q q).length (le_refl _) (fun c => (kindOf c).2) (0, [])
    rw [List.take_length] at this
    exact this
  · intro i hi
    rw [List.length_map] at hi
    have hi := List.mem_range.1 hi
    have hget : (part cs Q q)[i]? = some (part cs Q q)[i] := List.getElem?_eq_getElem hi
    rw [getD_at _ _ hi]
    generalize (part cs Q q)[i] = c at hget
    have hcs := part_get cs Q q i c hget
    obtain ⟨t, d, hrd⟩ := hr c (List.mem_of_getElem? hcs)
    have hs := before_succ cs _ c hcs
    have e1 : ((part cs Q q).map Prod.fst)[i]? = some c.1 := by rw [List.getElem?_map, hget]; rfl
    have e2 : ((List.range ((localRange q cs.length Q).2 - (localRange q cs.length Q).1 + 1)).map fun i =>
        ((before cs ((localRange q cs.length Q).1 + i) : Nat) : Int))[i]? = some ((before cs ((localRange q cs.length Q).1 + i) : Nat) : Int) := by
      rw [List.getElem?_map, List.getElem?_range (by omega)]; rfl
    have e3 : ((List.range ((localRange q cs.length Q).2 - (localRange q cs.length Q).1 + 1)).map fun i =>
        ((before cs ((localRange q cs.length Q).1 + i) : Nat) : Int))[i + 1]? = some ((before cs ((localRange q cs.length Q).1 + i + 1) : Nat) : Int) := by
      rw [List.getElem?_map, List.getElem?_range (by omega)]; rfl
    simp only [e1, e2, e3]
    have hn : (((before cs ((localRange q cs.length Q).1 + i + 1) : Nat) : Int) - ((before cs ((localRange q cs.length Q).1 + i) : Nat) : Int)).toNat = c.2.length := by
      rw [hs]; omega
    rw [kindOf_eq c t d hrd]
    obtain ⟨hnum, hl, hd, -⟩ := hrd
    obtain ⟨deg, hv, hcase⟩ := number_degree _ _ _ hnum
    simp only [hv, hn, hl]
    rcases hcase with ⟨rfl, h3⟩ | ⟨h0, rfl⟩
    · simp only [if_true, h3, pure, Except.pure]
      congr 1
      omega
    · simp only [if_neg h0, Int.toNat_natCast, pure, Except.pure]

/-! ## Kinds -/

theorem unique_strict {β : Type} [DecidableEq β] (le : β → β → Bool) (anti : ∀ a b, le a b = true → le b a = true → a = b) (l : List β)
    (h : l.Pairwise fun a b => le a b = true) : (unique l).Pairwise fun a b => le a b = true ∧ a ≠ b := by
  induction l with
  | nil => exact List.Pairwise.nil
  | cons a l ih =>
    rw [List.pairwise_cons] at h
    have ih := ih h.2
    have hm : ∀ x ∈ unique l, le a x = true := fun x hx => h.1 x ((mem_unique l x).1 hx)
    rw [unique]
    rcases hu : unique l with _ | ⟨b, r⟩
    · simp
    · rw [hu] at ih hm
      simp only
      split
      · exact ih
      · rename_i hab
        refine List.pairwise_cons.2 ⟨?_, ih⟩
        intro x hx
        refine ⟨hm x hx, ?_⟩
        rintro rfl
        rcases List.mem_cons.1 hx with hx | hx
        · exact hab hx
        · exact hab (anti _ _ (hm b (by simp)) ((List.pairwise_cons.1 ih).1 a hx).1)

theorem pairLe_trans (a b c : Nat × Nat) (h1 : pairLe a b = true) (h2 : pairLe b c = true) : pairLe a c = true := by
  simp only [pairLe, decide_eq_true_eq] at *
  omega

theorem pairLe_total (a b : Nat × Nat) : pairLe a b = true ∨ pairLe b a = true := by
  simp only [pairLe, decide_eq_true_eq]
  omega

theorem pairLe_anti (a b : Nat × Nat) (h1 : pairLe a b = true) (h2 : pairLe b a = true) : a = b := by
  simp only [pairLe, decide_eq_true_eq] at *
  ext <;> omega

/-- The list of all kinds. -/
def allKinds (cs : List (Nat × List Int)) (Q : Nat) : List (Nat × Nat) := allTypes ((List.range Q).map (local3 cs Q))

theorem allKinds_nodup (cs : List (Nat × List Int)) (Q : Nat) : (allKinds cs Q).Nodup := by
  have h1 := sort_sorted pairLe pairLe_trans (fun a b => by rcases pairLe_total a b with h | h <;> simp [h])
    (((List.range Q).map (local3 cs Q)).flatMap fun p => unique (sort pairLe (p.1.zip p.2.1)))
  exact (unique_strict pairLe pairLe_anti _ h1).imp (fun h => h.2)

theorem mem_allKinds (cs : List (Nat × List Int)) (Q : Nat) (hQ : 0 < Q) (x : Nat × Nat) : x ∈ allKinds cs Q ↔ ∃ c ∈ cs, kindOf c = x := by
  rw [allKinds, allTypes, mem_unique, mem_sort, List.flatMap_map]
  simp only [List.mem_flatMap, mem_unique, mem_sort, local3]
  have hz : ∀ q, ((part cs Q q).map Prod.fst).zip ((part cs Q q).map fun c => (kindOf c).2) = (part cs Q q).map kindOf := by
    intro q
    rw [List.zip_map']
    rfl
  simp only [hz, List.mem_map]
  constructor
  · rintro ⟨q, -, c, hc, rfl⟩
    exact ⟨c, part_mem cs Q q c hc, rfl⟩
  · rintro ⟨c, hc, rfl⟩
    rw [← parts_all cs Q hQ] at hc
    obtain ⟨q, hq, hc⟩ := List.mem_flatMap.1 hc
    exact ⟨q, hq, c, hc, rfl⟩

/-! ## Cells -/

theorem readCell_ok (cs : List (Nat × List Int)) (j : Nat) (c : Nat × List Int) (hj : cs[j]? = some c) (t : CellType) (d : Nat)
    (hr : Readable c t d) : readCell ((cs.map Prod.snd).flatten) c.1 (before cs j : Nat) (before cs (j + 1) : Nat) = .ok (rowOf c) := by
  obtain ⟨m, p, hT, hrow⟩ := rowOf_eq c t d hr
  obtain ⟨hnum, hl, hd, -⟩ := hr
  obtain ⟨deg, hv, -⟩ := number_degree _ _ _ hnum
  have hn : (((before cs (j + 1) : Nat) : Int) - (before cs j : Nat)).toNat = c.2.length := by
    rw [before_succ cs j c hj]; omega
  simp only [readCell, hv, hn, hT.perm, bind, Except.bind]
  rw [mapM_ok_map _ _ (fun k => c.2.getD (p.getD k 0) 0)]
  · congr 1
    have := map_range_take p c.2.length (by rw [hT.lenP]) (fun k => c.2.getD k 0) 0
    rw [this, hrow, vtkRow, List.take_of_length_le (by rw [hT.lenP])]
  · intro k hk
    have hk := List.mem_range.1 hk
    have hkp : k < p.length := by rw [hT.lenP]; exact hk
    have hpk : p[k]? = some p[k] := List.getElem?_eq_getElem (by rw [hT.lenP]; exact hk)
    have hlt : p[k] < c.2.length := hT.ltP _ (List.getElem_mem _)
    rw [getD_at p 0 (by rw [hT.lenP]; exact hk), hpk]
    simp only
    rw [if_neg (by omega)]
    have hg := flatten_get (cs.map Prod.snd) j p[k] c.2 (by rw [List.getElem?_map, hj]; rfl) hlt
    have hb : (((cs.map Prod.snd).take j).map List.length).sum = before cs j := by
      rw [← List.map_take, List.map_map]; rfl
    rw [hb] at hg
    rw [show ((p[k] : Int) + (before cs j : Nat)).toNat = before cs j + p[k] by omega, hg, List.getElem?_eq_getElem hlt, getD_at _ _ hlt]

theorem readCells_ok (f : File α) (cs : List (Nat × List Int)) (h : Describes f cs) (hr : ∀ c ∈ cs, ∃ t d, Readable c t d)
    (Q q : Nat) (hq : q < Q) (kinds : List (Nat × Nat)) (hk : ∀ c ∈ cs, kindOf c ∈ kinds) :
    readCells f kinds (local3 cs Q q) =
      .ok fun k => ((part cs Q q).filter fun c => decide (k = kinds.idxOf (kindOf c))).flatMap rowOf := by
  obtain ⟨h1, h2⟩ := range_le Q cs.length q hq
  have hpl := part_length cs Q q hq
  have hfront : (local3 cs Q q).2.2.head? = some ((before cs (localRange q cs.length Q).1 : Nat) : Int) := by
    simp only [local3]
    rw [List.range_succ_eq_map]
    rfl
  have hback : (local3 cs Q q).2.2.getLast? = some ((before cs (localRange q cs.length Q).2 : Nat) : Int) := by
    simp only [local3]
    rw [List.range_succ, List.map_append, List.map_singleton, List.getLast?_append, List.getLast?_singleton, Option.some_or, hpl,
      show (localRange q cs.length Q).1 + ((localRange q cs.length Q).2 - (localRange q cs.length Q).1) = (localRange q cs.length Q).2 by omega]
  have hbb : before cs (localRange q cs.length Q).2 = before cs (localRange q cs.length Q).1 + before (part cs Q q) (part cs Q q).length := by
    conv_lhs => rw [show (localRange q cs.length Q).2 = (localRange q cs.length Q).1 + (part cs Q q).length by omega]
    rw [before_add, hpl]
    conv_rhs => rw [part, before_take _ _ _ (le_refl _)]
  have hall : before (part cs Q q) (part cs Q q).length = (((part cs Q q).map Prod.snd).map List.length).sum := by
    rw [before, List.take_length, List.map_map]
    rfl
  have hflen : f.connectivity.length = before cs cs.length := by
    rw [h.connectivity, List.length_flatten, List.map_map, before, List.take_length]
    rfl
  have hle : before cs (localRange q cs.length Q).2 ≤ f.connectivity.length := by
    rw [hflen]
    conv_rhs => rw [show cs.length = (localRange q cs.length Q).2 + (cs.length - (localRange q cs.length Q).2) by omega, before_add]
    omega
  have htopo : readDataset f.connectivity ((before cs (localRange q cs.length Q).1 : Nat) : Int) ((before cs (localRange q cs.length Q).2 : Nat) : Int) =
      .ok ((part cs Q q).map Prod.snd).flatten := by
    rw [readDataset_slice _ _ _ (by omega) hle, h.connectivity]
    have := flatten_slice (cs.map Prod.snd) (localRange q cs.length Q).1 ((localRange q cs.length Q).2 - (localRange q cs.length Q).1)
    rw [← List.map_drop, ← List.map_take, ← List.map_take] at this
    rw [show ((cs.drop (localRange q cs.length Q).1).take ((localRange q cs.length Q).2 - (localRange q cs.length Q).1)) = part cs Q q from rfl] at this
    rw [← this, hbb, hall]
    congr 3
    · omega
    · rw [List.map_map]; rfl
  have hoff : ∀ i, i ≤ (part cs Q q).length → ((local3 cs Q q).2.2.map (· - ((before cs (localRange q cs.length Q).1 : Nat) : Int)))[i]? =
      some ((before (part cs Q q) i : Nat) : Int) := by
    intro i hi
    simp only [local3]
    rw [List.getElem?_map, List.getElem?_map, List.getElem?_range (by omega)]
    simp only [Option.map_some]
    congr 1
    rw [before_add]
    rw [part, before_take _ _ _ (by rw [← hpl]; exact hi)]
    omega
  have hstep : ∀ n, n ≤ (part cs Q q).length → (List.range n).foldlM (fun (out : Nat → List Int) j =>
      match (local3 cs Q q).1[j]?, (local3 cs Q q).2.1[j]?, ((local3 cs Q q).2.2.map (· - ((before cs (localRange q cs.length Q).1 : Nat) : Int)))[j]?,
        ((local3 cs Q q).2.2.map (· - ((before cs (localRange q cs.length Q).1 : Nat) : Int)))[j + 1]? with
      | some ty, some d, some a, some b =>
        if (ty, d) ∈ kinds then do
          let row ← readCell ((part cs Q q).map Prod.snd).flatten ty a b
          return fun k => if k = kinds.idxOf (ty, d) then out k ++ row else out k
        else .error .range
      | _, _, _, _ => .error .range) (fun _ => []) =
      (.ok fun k => (((part cs Q q).take n).filter fun c => decide (k = kinds.idxOf (kindOf c))).flatMap rowOf : Except Err (Nat → List Int)) := by
    intro n
    induction n with
    | zero => intro _; rfl
    | succ n ih =>
      intro hn
      have hget : (part cs Q q)[n]? = some (part cs Q q)[n] := List.getElem?_eq_getElem hn
      generalize (part cs Q q)[n] = c at hget
      have hcs := part_get cs Q q n c hget
      have hmem := List.mem_of_getElem? hcs
      obtain ⟨t, d, hrd⟩ := hr c hmem
      have e1 : (local3 cs Q q).1[n]? = some c.1 := by simp only [local3]; rw [List.getElem?_map, hget]; rfl
      have e2 : (local3 cs Q q).2.1[n]? = some (kindOf c).2 := by simp only [local3]; rw [List.getElem?_map, hget]; rfl
      rw [List.range_succ, List.foldlM_append, ih (by omega)]
      simp only [List.foldlM_cons, List.foldlM_nil, bind, Except.bind, e1, e2, hoff n (by omega), hoff (n + 1) hn]
      have hkd : (c.1, (kindOf c).2) = kindOf c := rfl
      rw [hkd, if_pos (hk c hmem), readCell_ok (part cs Q q) n c hget t d hrd]
      simp only [pure, Except.pure]
      congr 1
      funext k
      rw [List.take_add_one, hget, List.filter_append, List.flatMap_append]
      simp only [Option.toList_some, List.filter_cons, List.filter_nil]
      by_cases hkk : k = kinds.idxOf (kindOf c)
      · rw [if_pos hkk, if_pos (by simpa using hkk)]
        simp
      · rw [if_neg hkk, if_neg (by simpa using hkk)]
        simp
  have := hstep _ (le_refl _)
  rw [List.take_length] at this
  rw [readCells, hfront, hback]
  simp only [htopo, bind, Except.bind]
  rw [show (local3 cs Q q).1.length = (part cs Q q).length by simp [local3]]
  exact this

theorem readPoints_ok (f : File α) (hp : f.npoints = f.points.length) (Q gdim q : Nat) (hq : q < Q) (hg : gdim ≤ 3) :
    readPoints f Q gdim q = .ok ((part f.points Q q).map (·.take gdim)) := by
  obtain ⟨h1, h2⟩ := range_le Q f.points.length q hq
  have e : f.npoints.toNat = f.points.length := by rw [hp]; omega
  simp only [readPoints, e, readDataset_slice _ _ _ h1 h2, bind, Except.bind]
  rw [if_neg (by omega)]
  rfl

/-- The cell type of a number. -/
def typeOf (ty : Nat) : CellType := match vtkToDolfinx ty with
  | .ok (t, _) => t
  | .error _ => .point

theorem readMesh_ok (f : File α) (cs : List (Nat × List Int)) (h : Describes f cs) (hr : ∀ c ∈ cs, ∃ t d, Readable c t d)
    (hp : f.npoints = f.points.length) (Q gdim : Nat) (hQ : 0 < Q) (hg : gdim ≤ 3) :
    readMesh f Q gdim = .ok ⟨(allKinds cs Q).map fun k => (typeOf k.1, k.2),
      (List.range Q).map fun q => fun k => ((part cs Q q).filter fun c => decide (k = (allKinds cs Q).idxOf (kindOf c))).flatMap rowOf,
      (List.range Q).map fun q => (part f.points Q q).map (·.take gdim)⟩ := by
  have h1 : (List.range Q).mapM (readTypes f Q) = .ok ((List.range Q).map (local3 cs Q)) :=
    mapM_ok_map _ _ _ fun q hq => readTypes_ok f cs h hr Q q (List.mem_range.1 hq)
  have hk : ∀ c ∈ cs, kindOf c ∈ allKinds cs Q := fun c hc => (mem_allKinds cs Q hQ _).2 ⟨c, hc, rfl⟩
  have h2 : ((allKinds cs Q).mapM fun k => (do
      let (t, _) ← vtkToDolfinx k.1
      return (t, k.2) : Except Err (CellType × Nat))) = .ok ((allKinds cs Q).map fun k => (typeOf k.1, k.2)) := by
    apply mapM_ok_map
    intro k hkm
    obtain ⟨c, hc, rfl⟩ := (mem_allKinds cs Q hQ k).1 hkm
    obtain ⟨t, d, hrd⟩ := hr c hc
    obtain ⟨deg, hv, -⟩ := number_degree _ _ _ hrd.1
    have : (kindOf c).1 = c.1 := rfl
    simp only [this, hv, bind, Except.bind, pure, Except.pure, typeOf]
  have h3 : (List.range Q).mapM (readPoints f Q gdim) = .ok ((List.range Q).map fun q => (part f.points Q q).map (·.take gdim)) :=
    mapM_ok_map _ _ _ fun q hq => readPoints_ok f hp Q gdim q (List.mem_range.1 hq) hg
  have h4 : ((List.range Q).map (local3 cs Q)).mapM (readCells f (allKinds cs Q)) = .ok ((List.range Q).map fun q => fun k =>
      ((part cs Q q).filter fun c => decide (k = (allKinds cs Q).idxOf (kindOf c))).flatMap rowOf) := by
    rw [List.mapM_map]
    exact mapM_ok_map _ _ _ fun q hq => readCells_ok f cs h hr Q q (List.mem_range.1 hq) _ hk
  simp only [readMesh, h1, bind, Except.bind]
  rw [show allTypes ((List.range Q).map (local3 cs Q)) = allKinds cs Q from rfl]
  simp only [bind, Except.bind] at h2
  rw [h2, h3]
  simp only [h4, pure, Except.pure]

/-- All cells of one kind. -/
theorem cells_all (cs : List (Nat × List Int)) (Q : Nat) (hQ : 0 < Q) (p : Nat × List Int → Bool) :
    (List.range Q).flatMap (fun q => ((part cs Q q).filter p).flatMap rowOf) = (cs.filter p).flatMap rowOf := by
  conv_rhs => rw [← parts_all cs Q hQ, List.filter_flatMap, List.flatMap_assoc]

end Verif.Vtkhdf
