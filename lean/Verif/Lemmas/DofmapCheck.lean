import Verif.Lemmas.CollapseSpace
import Verif.Lemmas.WorldCheck
/-! Hypotheses about spaces by computation, for examples. -/
namespace Verif.SubSpace
open Verif.World Verif.Spec Verif.Dofmap

/-- `World.Valid` as a condition that can be computed. -/
def ValidCheck (w : World) : Prop :=
  ∀ r < w.P, (w.owners r).length = (w.ghosts r).length ∧ (w.ghosts r).Nodup ∧
    ∀ p ∈ (w.owners r).zip (w.ghosts r), p.1 < w.P ∧ p.1 ≠ r ∧ w.r0 p.1 ≤ p.2 ∧ p.2 < w.r0 p.1 + w.size p.1

instance (w : World) : Decidable (ValidCheck w) := by unfold ValidCheck; infer_instance

/-- The dof `x` is only at one place. -/
def OnceCheck (ed : EDofs) (n d s j x : Nat) : Prop :=
  ∀ d' < n, ∀ s' < (ed.getD d' []).length, ∀ j' < (slot ed d' s').length, x ≠ (slot ed d' s').getD j' 0 ∨ (d, s, j) = (d', s', j')

instance (ed : EDofs) (n d s j x : Nat) : Decidable (OnceCheck ed n d s j x) := by unfold OnceCheck; infer_instance

/-- The connectivity of one cell. -/
def RowCheck (I : Dofmap.Input) (r d et s c : Nat) : Prop :=
  c < ((I.conn r 0 d et).getD []).length ∧
    ((I.types d)[et]? = some (I.etype 0 d s) → (((I.conn r 0 d et).getD []).getD c []).length =
      (List.range ((I.layout 0).getD d []).length).countP (fun s' => decide (I.etype 0 d s' = I.etype 0 d s))) ∧
    ∀ e ∈ ((I.conn r 0 d et).getD []).getD c [], e < numEnts I r d et

instance (I : Dofmap.Input) (r d et s c : Nat) : Decidable (RowCheck I r d et s c) := by unfold RowCheck; infer_instance

/-- The entity is in a cell. -/
def InCell (I : Dofmap.Input) (r d et E : Nat) : Prop :=
  ∃ c ∈ List.range (Dofmap.numCells I r 0), c < ((I.conn r 0 d et).getD []).length ∧ E ∈ ((I.conn r 0 d et).getD []).getD c []

instance (I : Dofmap.Input) (r d et E : Nat) : Decidable (InCell I r d et E) := by unfold InCell; infer_instance

theorem slot_some {ed : EDofs} {d s : Nat} {ds : List Nat} (h : (ed.getD d [])[s]? = some ds) :
    s < (ed.getD d []).length ∧ slot ed d s = ds := by
  refine ⟨(List.getElem?_eq_some_iff.mp h).1, ?_⟩
  unfold slot
  rw [List.getD_eq_getElem?_getD (l := ed.getD d []), h]
  rfl

theorem getD_some {l : List Nat} {j x : Nat} (h : l[j]? = some x) : j < l.length ∧ l.getD j 0 = x := by
  refine ⟨(List.getElem?_eq_some_iff.mp h).1, ?_⟩
  rw [List.getD_eq_getElem?_getD, h]
  rfl

/-- `Dofmap.Ok` for one cell type. -/
theorem dofmapOk_of_check (I : Dofmap.Input) (R : List Req) (h1 : I.nct = 1)
    (hv : ∀ d < I.D + 1, ∀ et < (I.types d).length, (I.maps d et).P = I.P ∧ ValidCheck (I.maps d et))
    (ht : ∀ d < I.D + 1, (I.types d).Nodup) (htc : (I.types I.D).length = 1)
    (hem : ∀ d < I.D + 1, ∀ s < ((I.layout 0).getD d []).length, I.etype 0 d s ∈ I.types d)
    (hec : (I.types I.D)[0]? = some (I.etype 0 I.D 0)) (ho : ((I.layout 0).getD I.D []).length ≤ 1)
    (hl : ∀ d < I.D + 1, ∀ s < ((I.layout 0).getD d []).length, ∀ l ∈ slot (I.layout 0) d s, l < I.ndofs 0)
    (hs : ∀ l < I.ndofs 0, ∃ d ∈ List.range (I.D + 1), ∃ s ∈ List.range ((I.layout 0).getD d []).length, l ∈ slot (I.layout 0) d s)
    (hu : ∀ d < I.D + 1, ∀ s < ((I.layout 0).getD d []).length, ∀ j < (slot (I.layout 0) d s).length,
      OnceCheck (I.layout 0) (I.D + 1) d s j ((slot (I.layout 0) d s).getD j 0))
    (hc : ∀ d < I.D + 1, ∀ s < ((I.layout 0).getD d []).length, ∀ s' < ((I.layout 0).getD d []).length,
      I.etype 0 d s = I.etype 0 d s' → (slot (I.layout 0) d s).length = (slot (I.layout 0) d s').length)
    (hcn : ∀ r < I.P, ∀ d < I.D, ∀ et < (I.types d).length, ∀ s < ((I.layout 0).getD d []).length,
      (I.conn r 0 d et).isSome = true ∧ ∀ c < Dofmap.numCells I r 0, RowCheck I r d et s c)
    (hr : ∀ r, r < I.P → ∀ f, I.reorder r = some f → ∀ g : List (List Nat), (f g).Perm (List.range g.length))
    (hR : ∀ r < I.P, required I r = some R ∧ (I.wait r).Perm (List.range R.length)) : Dofmap.Ok I := by
  have hz : ∀ {i}, i < I.nct → i = 0 := by intro i hi; omega
  have hd : ∀ {d}, d ≤ I.D → d < I.D + 1 := fun h => Nat.lt_succ_of_le h
  refine ⟨?_, fun d h => ht d (hd h), by rw [htc, h1], ?_, ?_, ?_, ?_, ?_, ?_, ?_, ?_, ?_, ?_⟩
  · intro d h et het
    exact ⟨(hv d (hd h) et het).1, valid_of_check _ (hv d (hd h) et het).2⟩
  · intro i hi d h s hsl
    obtain rfl := hz hi
    exact hem d (hd h) s hsl
  · intro i hi
    obtain rfl := hz hi
    exact hec
  · intro i hi
    obtain rfl := hz hi
    exact ho
  · intro i hi d h s ds hds l hlm
    obtain rfl := hz hi
    obtain ⟨a1, rfl⟩ := slot_some hds
    exact hl d (hd h) s a1 l hlm
  · intro i hi l hlt
    obtain rfl := hz hi
    obtain ⟨d, a1, s, a2, a3⟩ := hs l hlt
    rw [List.mem_range] at a1 a2
    obtain ⟨j, hj⟩ := List.mem_iff_getElem?.mp a3
    refine ⟨d, s, j, slot (I.layout 0) d s, by omega, ?_, hj⟩
    unfold slot
    rw [List.getD_eq_getElem?_getD (l := (I.layout 0).getD d []), List.getElem?_eq_getElem a2]
    rfl
  · intro i hi l d s j ds d' s' j' ds' h h' g1 g2 g3 g4
    obtain rfl := hz hi
    obtain ⟨a1, rfl⟩ := slot_some g1
    obtain ⟨a2, rfl⟩ := slot_some g3
    obtain ⟨b1, c1⟩ := getD_some g2
    obtain ⟨b2, c2⟩ := getD_some g4
    rcases hu d (hd h) s a1 j b1 d' (hd h') s' a2 j' b2 with g | g
    · exact absurd (c1.trans c2.symm) g
    · cases g
      exact ⟨rfl, rfl, rfl⟩
  · intro i hi i' hi' d h s s' ds ds' g1 g2 g3 _ _
    obtain rfl := hz hi
    obtain rfl := hz hi'
    obtain ⟨a1, rfl⟩ := slot_some g1
    obtain ⟨a2, rfl⟩ := slot_some g2
    exact hc d (hd h) s a1 s' a2 g3
  · intro r hrr i hi d h et s hsl het
    obtain rfl := hz hi
    obtain ⟨a1, a2⟩ := hcn r hrr d h et (List.getElem?_eq_some_iff.mp het).1 s hsl
    obtain ⟨cn, hcn'⟩ := Option.isSome_iff_exists.mp a1
    unfold RowCheck at a2
    rw [hcn'] at a2
    refine ⟨cn, hcn', ?_⟩
    intro c hcc
    obtain ⟨b1, b2, b3⟩ := a2 c hcc
    simp only [Option.getD_some] at b1 b2 b3
    rw [List.getD_eq_getElem?_getD, List.getElem?_eq_getElem b1] at b2 b3
    exact ⟨_, List.getElem?_eq_getElem b1, b2 het, b3⟩
  · intro r hrr f hf g _ _
    exact hr r hrr f hf g
  · intro r hrr R' hR'
    obtain ⟨a1, a2⟩ := hR r hrr
    rw [a1] at hR'
    obtain rfl := Option.some.inj hR'
    exact a2

theorem good_of_check {sh : List Nat} {et : Nat → Nat → Nat} (b : Basix) (hsh : b.ed.map List.length = sh)
    (hc : ∀ i < b.dim, ∃ d ∈ List.range sh.length, ∃ s ∈ List.range (sh.getD d 0), i ∈ slot b.ed d s)
    (hr : ∀ d < sh.length, ∀ s < sh.getD d 0, ∀ i ∈ slot b.ed d s, i < b.dim)
    (he : ∀ d < sh.length, ∀ s < sh.getD d 0, ∀ s' < sh.getD d 0, et d s = et d s' → (slot b.ed d s).length = (slot b.ed d s').length)
    (hp : ∀ f, b.perm = some f → ∀ info (l : List Nat), l.length = b.dim → (f info l).length = b.dim ∧
      ∀ d < sh.length, ∀ s < sh.getD d 0, ((slot b.ed d s).filterMap fun i => (f info l)[i]?).Perm ((slot b.ed d s).filterMap fun i => l[i]?)) :
    b.Good sh et := by
  have hout : ∀ d s, slot b.ed d s ≠ [] → d < sh.length ∧ s < sh.getD d 0 := by
    intro d s hne
    have h2 : s < sh.getD d 0 := by
      rw [← shape_get hsh]
      by_contra hc
      apply hne
      unfold slot
      rw [List.getD_eq_getElem?_getD (l := b.ed.getD d []), List.getElem?_eq_none (by omega)]
      rfl
    refine ⟨?_, h2⟩
    by_contra hc
    rw [List.getD_eq_getElem?_getD, List.getElem?_eq_none (by omega)] at h2
    simp at h2
  refine ⟨?_, ?_, ?_, ?_⟩
  · intro i hi
    obtain ⟨d, h1, s, h2, h3⟩ := hc i hi
    exact ⟨d, s, List.mem_range.mp h2, h3⟩
  · intro d s i hi
    obtain ⟨h1, h2⟩ := hout d s (List.ne_nil_of_mem hi)
    exact hr d h1 s h2 i hi
  · intro d s s' h1 h2 h3
    by_cases hd : d < sh.length
    · exact he d hd s h1 s' h2 h3
    · rw [List.getD_eq_getElem?_getD, List.getElem?_eq_none (by omega)] at h1
      simp at h1
  · intro f hf info l hl
    refine ⟨(hp f hf info l hl).1, ?_⟩
    intro d s
    by_cases hne : slot b.ed d s = []
    · have : (b.ed.getD d []).getD s [] = [] := hne
      rw [this]
      exact List.Perm.refl _
    · obtain ⟨h1, h2⟩ := hout d s hne
      exact (hp f hf info l hl).2 d h1 s h2

/-- `Touched` by computation. -/
theorem touched_of_check (I : Dofmap.Input)
    (h : ∀ r < I.P, ∀ d < I.D, ∀ et < (I.types d).length, (I.conn r 0 d et).isSome = true ∧ ∀ E < numEnts I r d et,
      InCell I r d et E) :
    Touched I := by
  intro r hr d et j hj hd E hE
  obtain ⟨hdD, i, s0, ds, hi, g1, g2, g3⟩ := hj
  obtain ⟨a1, a2⟩ := h r hr d hd et (List.getElem?_eq_some_iff.mp g2).1
  obtain ⟨cn, hcn⟩ := Option.isSome_iff_exists.mp a1
  obtain ⟨c, b1, b2, b3⟩ := a2 E hE
  rw [hcn, Option.getD_some] at b2 b3
  rw [List.getD_eq_getElem?_getD, List.getElem?_eq_getElem b2] at b3
  exact ⟨c, List.mem_range.mp b1, cn, _, hcn, List.getElem?_eq_getElem b2, b3⟩

end Verif.SubSpace
