import Verif.Lemmas.VectorOps
import Mathlib.Data.Complex.Basic
import Mathlib.Analysis.Complex.Basic
import Mathlib.LinearAlgebra.LinearIndependent.Lemmas
/-!
# C13: orthonormalize
-/
namespace Verif.Props
open Verif.World Verif.VectorOps Finset

section general
variable {K : Type} [RCLike K] (w : World) (bs : Nat)

theorem inner_sub_smul (a b d : Vec K) (c : K) :
    inner w bs a (fun r n => b r n - c * d r n) = inner w bs a b - c * inner w bs a d := by
  simp only [inner_eq, Finset.mul_sum, ← Finset.sum_sub_distrib]
  apply Finset.sum_congr rfl; intro r _
  apply Finset.sum_congr rfl; intro n _
  ring

theorem inner_div (a b : Vec K) (c : K) :
    inner w bs a (fun r n => b r n / c) = inner w bs a b / c := by
  simp only [inner_eq, div_eq_mul_inv, Finset.sum_mul]
  apply Finset.sum_congr rfl; intro r _
  apply Finset.sum_congr rfl; intro n _
  ring

theorem inner_conj (a b : Vec K) : inner w bs b a = (starRingEnd K) (inner w bs a b) := by
  simp only [inner_eq, map_sum, map_mul, RingHomCompTriple.comp_apply, RingHom.id_apply]
  apply Finset.sum_congr rfl; intro r _
  apply Finset.sum_congr rfl; intro n _
  ring

theorem inner_self_eq (a : Vec K) : inner w bs a a = ((squaredNorm w bs a : ℝ) : K) := by
  unfold squaredNorm
  rw [inner_eq, map_sum]
  push_cast
  apply Finset.sum_congr rfl; intro r _
  rw [map_sum]; push_cast
  apply Finset.sum_congr rfl; intro n _
  rw [RCLike.conj_mul]
  norm_cast

theorem squaredNorm_nonneg (a : Vec K) : 0 ≤ squaredNorm w bs a := by
  unfold squaredNorm
  rw [inner_eq, map_sum]
  apply Finset.sum_nonneg; intro r _
  rw [map_sum]
  apply Finset.sum_nonneg; intro n _
  rw [RCLike.conj_mul]
  have : RCLike.re ((‖a r n‖ : K) ^ 2) = ‖a r n‖ ^ 2 := by norm_cast
  rw [this]; positivity

theorem normL2_sq (a : Vec K) : normL2 w bs a * normL2 w bs a = squaredNorm w bs a :=
  Real.mul_self_sqrt (squaredNorm_nonneg w bs a)

/-- A successful step divides the projected vector by its (positive) norm. -/
theorem orthoStep_some {eps : ℝ} (he : 0 < eps) {done : List (Vec K)} {b b' : Vec K}
    (h : orthoStep w bs eps done b = some b') :
    0 < normL2 w bs (project w bs done b) ∧
      b' = fun r n => project w bs done b r n / (normL2 w bs (project w bs done b) : K) := by
  unfold orthoStep at h
  simp only at h
  split at h
  · cases h
  · rename_i hlt
    refine ⟨?_, (Option.some.inj h).symm⟩
    have h0 : 0 ≤ normL2 w bs (project w bs done b) := Real.sqrt_nonneg _
    rcases h0.lt_or_eq with h1 | h1
    · exact h1
    · rw [← h1] at hlt; simp at hlt; linarith

/-- The normalised vector has unit self product. -/
theorem inner_normalised (b : Vec K) (h : 0 < normL2 w bs b) :
    inner w bs (fun r n => b r n / (normL2 w bs b : K)) (fun r n => b r n / (normL2 w bs b : K)) = 1 := by
  rw [inner_div, inner_conj, inner_div, inner_self_eq, ← normL2_sq]
  have : ((normL2 w bs b : ℝ) : K) ≠ 0 := by exact_mod_cast h.ne'
  simp only [map_div₀, RCLike.conj_ofReal]
  push_cast
  field_simp

/-- `project` changes the vector only by multiples of the vectors in `done`. -/
theorem project_span (done : List (Vec K)) (b : Vec K) :
    b - project w bs done b ∈ Submodule.span K {v | v ∈ done} := by
  unfold project
  suffices ∀ (l : List (Vec K)) (c : Vec K), (∀ v ∈ l, v ∈ done) →
      b - c ∈ Submodule.span K {v | v ∈ done} →
      b - l.foldl (fun b bj => fun r n => b r n - inner w bs b bj * bj r n) c ∈ Submodule.span K {v | v ∈ done} from
    this done b (fun v h => h) (by simp)
  intro l
  induction l with
  | nil => intro c _ h; exact h
  | cons d l ih =>
    intro c hl hc
    rw [List.foldl_cons]
    apply ih _ (fun v hv => hl v (List.mem_cons_of_mem _ hv))
    have : b - (fun r n => c r n - inner w bs c d * d r n) = (b - c) + inner w bs c d • d := by
      funext r n; simp; ring
    rw [this]
    exact Submodule.add_mem _ hc (Submodule.smul_mem _ _ (Submodule.subset_span (hl d (List.mem_cons_self ..))))

theorem orthoStep_span {eps : ℝ} (he : 0 < eps) {done : List (Vec K)} {b b' : Vec K}
    (h : orthoStep w bs eps done b = some b') :
    Submodule.span K ({v | v ∈ done ++ [b']} : Set (Vec K)) =
      Submodule.span K ({v | v ∈ done} ∪ {b}) := by
  obtain ⟨hpos, hb'⟩ := orthoStep_some w bs he h
  have hp := project_span w bs done b
  have hne : ((normL2 w bs (project w bs done b) : ℝ) : K) ≠ 0 := by exact_mod_cast hpos.ne'
  have hsm : b' = ((normL2 w bs (project w bs done b) : ℝ) : K)⁻¹ • project w bs done b := by
    rw [hb']; funext r n; simp [div_eq_inv_mul]
  have hsm' : project w bs done b = ((normL2 w bs (project w bs done b) : ℝ) : K) • b' := by
    conv_rhs => rw [hsm, smul_smul, mul_inv_cancel₀ hne, one_smul]
  apply le_antisymm
  · rw [Submodule.span_le]
    intro v hv
    simp only [Set.mem_ofPred_eq, List.mem_append, List.mem_singleton] at hv
    rcases hv with hv | hv
    · exact Submodule.subset_span (Or.inl hv)
    · subst hv
      rw [hsm]
      apply Submodule.smul_mem
      have h1 : project w bs done b = b - (b - project w bs done b) := by abel
      rw [h1]
      apply Submodule.sub_mem
      · exact Submodule.subset_span (Or.inr rfl)
      · exact Submodule.span_mono Set.subset_union_left hp
  · rw [Submodule.span_le]
    intro v hv
    rcases hv with hv | hv
    · exact Submodule.subset_span (List.mem_append_left _ hv)
    · have : v = b := hv
      subst this
      have h1 : v = (v - project w bs done v) + project w bs done v := by abel
      rw [h1]
      apply Submodule.add_mem
      · exact Submodule.span_mono (fun v hv => List.mem_append_left _ hv) hp
      · rw [hsm']
        exact Submodule.smul_mem _ _ (Submodule.subset_span (List.mem_append_right _ (by simp)))

/-- C13, span and unit norm, real and complex: on success the number of vectors is unchanged,
every vector has norm one and the vectors span the same space as the input (owned and
ghost entries). -/
theorem C13_same_span_unit_norm (eps : ℝ) (he : 0 < eps) (basis out : List (Vec K))
    (h : orthonormalize w bs eps basis = some out) :
    out.length = basis.length ∧ (∀ v ∈ out, inner w bs v v = 1) ∧
      Submodule.span K {v | v ∈ out} = Submodule.span K {v | v ∈ basis} := by
  unfold orthonormalize at h
  suffices ∀ (rest done out : List (Vec K)), (∀ v ∈ done, inner w bs v v = 1) →
      orthoFrom w bs eps done rest = some out →
      out.length = done.length + rest.length ∧ (∀ v ∈ out, inner w bs v v = 1) ∧
      Submodule.span K {v | v ∈ out} = Submodule.span K ({v | v ∈ done} ∪ {v | v ∈ rest}) by
    simpa using this basis [] out (by simp) h
  intro rest
  induction rest with
  | nil =>
    intro done out hd h
    simp only [orthoFrom, Option.some.injEq] at h
    subst h
    exact ⟨rfl, hd, by simp⟩
  | cons b rest ih =>
    intro done out hd h
    unfold orthoFrom at h
    split at h
    · cases h
    · rename_i b' hb
      obtain ⟨hpos, hb'⟩ := orthoStep_some w bs he hb
      obtain ⟨h1, h2, h3⟩ := ih (done ++ [b']) out (by
        intro v hv
        rcases List.mem_append.mp hv with hv | hv
        · exact hd v hv
        · rw [List.mem_singleton] at hv
          subst hv
          rw [hb']
          exact inner_normalised w bs _ hpos) h
      refine ⟨by rw [h1]; simp; omega, h2, ?_⟩
      rw [h3, Submodule.span_union, orthoStep_span w bs he hb, ← Submodule.span_union]
      congr 1
      ext v; simp only [Set.mem_union, Set.mem_ofPred_eq, Set.mem_singleton_iff, List.mem_cons]; tauto

end general

section real
variable (w : World) (bs : Nat)

theorem inner_comm_real (a b : Vec ℝ) : inner w bs a b = inner w bs b a := by
  rw [inner_conj]; simp

/-- Pairwise orthogonal, unit norm. -/
def Orthonormal (l : List (Vec ℝ)) : Prop :=
  (∀ v ∈ l, inner w bs v v = 1) ∧ l.Pairwise (fun a b => inner w bs a b = 0)

theorem project_orth (done : List (Vec ℝ)) (hd : Orthonormal w bs done) (b : Vec ℝ) :
    ∀ v ∈ done, inner w bs v (project w bs done b) = 0 := by
  unfold project
  suffices ∀ (l p : List (Vec ℝ)) (c : Vec ℝ), p ++ l = done → (∀ v ∈ p, inner w bs v c = 0) →
      ∀ v ∈ done, inner w bs v (l.foldl (fun b bj => fun r n => b r n - inner w bs b bj * bj r n) c) = 0 from
    this done [] b rfl (by simp)
  intro l
  induction l with
  | nil => intro p c hp hc v hv; rw [List.append_nil] at hp; subst hp; exact hc v hv
  | cons d l ih =>
    intro p c hp hc v hv
    rw [List.foldl_cons]
    apply ih (p ++ [d]) _ (by rw [← hp]; simp) _ v hv
    intro u hu
    rw [inner_sub_smul]
    rcases List.mem_append.mp hu with hu | hu
    · have hpw := hd.2
      rw [← hp] at hpw
      have := (List.pairwise_append.mp hpw).2.2 u hu d (List.mem_cons_self ..)
      rw [hc u hu, this]; ring
    · rw [List.mem_singleton] at hu
      subst hu
      rw [hd.1 u (by rw [← hp]; simp), inner_comm_real w bs c u]; ring

/-- C13, real scalars: if `orthonormalize` returns, every pair of distinct basis vectors has
inner product zero and each has norm one.  Missing: complex scalars (refuted below);
rejection of independent input through the tolerance and rounding. -/
theorem C13_orthonormal_real_partial (eps : ℝ) (he : 0 < eps) (basis out : List (Vec ℝ))
    (h : orthonormalize w bs eps basis = some out) : Orthonormal w bs out := by
  unfold orthonormalize at h
  suffices ∀ (rest done out : List (Vec ℝ)), Orthonormal w bs done →
      orthoFrom w bs eps done rest = some out → Orthonormal w bs out from
    this basis [] out ⟨by simp, List.Pairwise.nil⟩ h
  intro rest
  induction rest with
  | nil =>
    intro done out hd h
    simp only [orthoFrom, Option.some.injEq] at h
    subst h; exact hd
  | cons b rest ih =>
    intro done out hd h
    unfold orthoFrom at h
    split at h
    · cases h
    · rename_i b' hb
      obtain ⟨hpos, hb'⟩ := orthoStep_some w bs he hb
      refine ih (done ++ [b']) out ⟨?_, ?_⟩ h
      · intro v hv
        rcases List.mem_append.mp hv with hv | hv
        · exact hd.1 v hv
        · rw [List.mem_singleton] at hv
          subst hv
          rw [hb']
          exact inner_normalised w bs _ hpos
      · rw [List.pairwise_append]
        refine ⟨hd.2, by simp, ?_⟩
        intro a ha c hc
        rw [List.mem_singleton] at hc
        subst hc
        rw [hb', inner_div, project_orth w bs done hd b a ha]; simp

theorem inner_add_right (a b d : Vec ℝ) : inner w bs a (b + d) = inner w bs a b + inner w bs a d := by
  have := inner_sub_smul w bs a b d (-1)
  have e : (fun r n => b r n - -1 * d r n) = b + d := by funext r n; simp
  rw [e] at this; rw [this]; ring

theorem inner_smul_right (a b : Vec ℝ) (c : ℝ) : inner w bs a (c • b) = c * inner w bs a b := by
  have := inner_sub_smul w bs a (0 : Vec ℝ) b (-c)
  have e : (fun r n => (0 : Vec ℝ) r n - -c * b r n) = c • b := by funext r n; simp
  have z : inner w bs a (0 : Vec ℝ) = 0 := by simp [inner_eq]
  rw [e, z] at this; rw [this]; ring

/-- C13, dependent input (real scalars): if some input vector is a combination of the vectors
before it, the call raises the "Linear dependency" error. -/
theorem C13_dependent_rejected_real (eps : ℝ) (he : 0 < eps) (pre post : List (Vec ℝ)) (b : Vec ℝ)
    (hdep : b ∈ Submodule.span ℝ {v | v ∈ pre}) :
    orthonormalize w bs eps (pre ++ b :: post) = none := by
  by_contra hne
  obtain ⟨out, hout⟩ := Option.ne_none_iff_exists'.mp hne
  -- run the prefix
  have hsplit : ∀ (l done out : List (Vec ℝ)) (rest : List (Vec ℝ)),
      orthoFrom w bs eps done (l ++ rest) = some out →
      ∃ mid, orthoFrom w bs eps done l = some mid ∧ orthoFrom w bs eps mid rest = some out := by
    intro l
    induction l with
    | nil => intro done out rest h; exact ⟨done, rfl, h⟩
    | cons d l ih =>
      intro done out rest h
      rw [List.cons_append] at h
      unfold orthoFrom at h
      split at h
      · cases h
      · rename_i d' hd
        obtain ⟨mid, h1, h2⟩ := ih _ _ _ h
        refine ⟨mid, ?_, h2⟩
        unfold orthoFrom
        simp only [hd]
        exact h1
  obtain ⟨mid, h1, h2⟩ := hsplit pre [] out (b :: post) hout
  have horth : Orthonormal w bs mid := C13_orthonormal_real_partial w bs eps he pre mid h1
  have hspan := (C13_same_span_unit_norm w bs eps he pre mid h1).2.2
  unfold orthoFrom at h2
  split at h2
  · cases h2
  · rename_i b' hb
    obtain ⟨hpos, -⟩ := orthoStep_some w bs he hb
    have ho := project_orth w bs mid horth b
    -- the projected vector lies in the span and is orthogonal to it
    have hmem : project w bs mid b ∈ Submodule.span ℝ {v | v ∈ mid} := by
      have e : project w bs mid b = b - (b - project w bs mid b) := by abel
      rw [e]
      exact Submodule.sub_mem _ (by rw [hspan]; exact hdep) (project_span w bs mid b)
    have hz : ∀ v ∈ Submodule.span ℝ {v | v ∈ mid}, inner w bs (project w bs mid b) v = 0 := by
      intro v hv
      induction hv using Submodule.span_induction with
      | mem x hx => rw [inner_comm_real]; exact ho x hx
      | zero => simp [inner_eq]
      | add x y _ _ hx hy => rw [inner_add_right, hx, hy]; ring
      | smul a x _ hx => rw [inner_smul_right, hx]; ring
    have h0 := hz _ hmem
    rw [inner_self_eq, ← normL2_sq] at h0
    have : normL2 w bs (project w bs mid b) * normL2 w bs (project w bs mid b) = 0 := by exact_mod_cast h0
    nlinarith

end real

/-- One rank owning two entries. -/
def exOrtho : World := ⟨1, fun _ => 2, fun _ => [], fun _ => []⟩

def vec2 (a b : ℂ) : Vec ℂ := fun _ n => if n = 0 then a else b

theorem inner_exOrtho (a b : Vec ℂ) :
    inner exOrtho 1 a b = (starRingEnd ℂ) (a 0 0) * b 0 0 + (starRingEnd ℂ) (a 0 1) * b 0 1 := by
  simp [inner, exOrtho, List.range_succ]

/-- C13 is false for complex scalars: the projection coefficient is `inner_product(bi, bj)`,
the conjugate of the right one.  For the independent vectors (1,0), (i,1) the call succeeds
but the two results are not orthogonal. -/
theorem C13_refuted_complex :
    ∃ p q u v : Vec ℂ, (∀ c d : ℂ, (∀ n, n < 2 → c * p 0 n + d * q 0 n = 0) → c = 0 ∧ d = 0) ∧
      orthonormalize exOrtho 1 (1 / 1000) [p, q] = some [u, v] ∧ inner exOrtho 1 u v ≠ 0 := by
  have hn0 : normL2 exOrtho 1 (vec2 1 0) = 1 := by
    simp [normL2, squaredNorm, inner_exOrtho, vec2]
  have hs0 : orthoStep exOrtho 1 (1 / 1000) [] (vec2 1 0) = some (vec2 1 0) := by
    simp only [orthoStep, project, List.foldl_nil, hn0]
    rw [if_neg (by norm_num)]
    congr 1; funext r n; simp
  have hp : project exOrtho 1 [vec2 1 0] (vec2 Complex.I 1) = vec2 (2 * Complex.I) 1 := by
    funext r n
    simp only [project, List.foldl_cons, List.foldl_nil, inner_exOrtho]
    simp [vec2]
    split <;> ring
  have hn1 : normL2 exOrtho 1 (vec2 (2 * Complex.I) 1) = Real.sqrt 5 := by
    simp [normL2, squaredNorm, inner_exOrtho, vec2]
    norm_num
  have h5 : Real.sqrt 5 * Real.sqrt 5 = 5 := Real.mul_self_sqrt (by norm_num)
  refine ⟨vec2 1 0, vec2 Complex.I 1, vec2 1 0,
    (fun r n => vec2 (2 * Complex.I) 1 r n / ((Real.sqrt 5 : ℝ) : ℂ)), ?_, ?_, ?_⟩
  · intro c d h
    have h0 := h 0 (by omega)
    have h1 := h 1 (by omega)
    simp [vec2] at h0 h1
    subst h1; simpa using h0
  · unfold orthonormalize orthoFrom
    simp only [hs0]
    unfold orthoFrom
    simp only [List.nil_append, orthoStep, hp, hn1]
    rw [if_neg (by rw [h5]; norm_num)]
    simp [orthoFrom]
  · rw [inner_exOrtho]
    simp [vec2, Complex.I_ne_zero]

/-- Dependent complex input is accepted: (1,0), (i,0). -/
theorem C13_refuted_complex_dependent :
    orthonormalize exOrtho 1 (1 / 1000) [vec2 1 0, vec2 Complex.I 0] ≠ none := by
  have hn0 : normL2 exOrtho 1 (vec2 1 0) = 1 := by
    simp [normL2, squaredNorm, inner_exOrtho, vec2]
  have hs0 : orthoStep exOrtho 1 (1 / 1000) [] (vec2 1 0) = some (vec2 1 0) := by
    simp only [orthoStep, project, List.foldl_nil, hn0]
    rw [if_neg (by norm_num)]
    congr 1; funext r n; simp
  have hp : project exOrtho 1 [vec2 1 0] (vec2 Complex.I 0) = vec2 (2 * Complex.I) 0 := by
    funext r n
    simp only [project, List.foldl_cons, List.foldl_nil, inner_exOrtho]
    simp [vec2]
    split <;> ring
  have hn1 : normL2 exOrtho 1 (vec2 (2 * Complex.I) 0) * normL2 exOrtho 1 (vec2 (2 * Complex.I) 0) = 4 := by
    rw [normL2_sq]
    simp [squaredNorm, inner_exOrtho, vec2]
    norm_num
  unfold orthonormalize orthoFrom
  simp only [hs0]
  unfold orthoFrom
  simp only [List.nil_append, orthoStep, hp, hn1]
  rw [if_neg (by norm_num)]
  simp [orthoFrom]

def vec2r (a b : ℝ) : Vec ℝ := fun _ n => if n = 0 then a else b

-- a real basis for which the call succeeds: (2,0), (3,5) gives (1,0), (0,1)
example : orthonormalize exOrtho 1 (1 / 1000) [vec2r 2 0, vec2r 3 5] = some [vec2r 1 0, vec2r 0 1] := by
  have hi : ∀ a b : Vec ℝ, inner exOrtho 1 a b = a 0 0 * b 0 0 + a 0 1 * b 0 1 := by
    intro a b; simp [inner, exOrtho, List.range_succ]
  have hn0 : normL2 exOrtho 1 (vec2r 2 0) = 2 := by
    simp [normL2, squaredNorm, hi, vec2r]
  have hn1 : normL2 exOrtho 1 (vec2r 0 5) = 5 := by
    simp [normL2, squaredNorm, hi, vec2r]
  have hs0 : orthoStep exOrtho 1 (1 / 1000) [] (vec2r 2 0) = some (vec2r 1 0) := by
    simp only [orthoStep, project, List.foldl_nil, hn0]
    rw [if_neg (by norm_num)]
    congr 1; funext r n; simp only [vec2r]; split <;> simp
  have hp : project exOrtho 1 [vec2r 1 0] (vec2r 3 5) = vec2r 0 5 := by
    funext r n
    simp only [project, List.foldl_cons, List.foldl_nil, hi]
    simp [vec2r]
    split <;> ring
  unfold orthonormalize orthoFrom
  simp only [hs0]
  unfold orthoFrom
  simp only [List.nil_append, orthoStep, hp, hn1]
  rw [if_neg (by norm_num)]
  simp [orthoFrom]
  funext r n; simp only [vec2r]; split <;> simp

end Verif.Props
