import Verif.Lemmas.InterpolateFn
/-!
# C76: interpolation gives the dofs of the function that is interpolated
-/
namespace Verif.Props
open Verif.Interp Verif.Spec.Interp

variable {T : Type} [CommRing T]

/-! ## Values -/

theorem isDof_mono {e : Elem T} {cg cd : Nat} {val val' : Nat → Nat → T → Prop} (h : ∀ p < e.npts, ∀ m y, val p m y → val' p m y) {j : Nat} {y : T}
    (hd : IsDof e cg cd val j y) : IsDof e cg cd val' j y := by
  obtain ⟨w, h1, h2⟩ := hd
  refine ⟨w, ?_, h2⟩
  intro p hp m' hm'
  obtain ⟨m, a, b⟩ := h1 p hp m' hm'
  exact ⟨m, a, h p hp m _ b⟩

theorem sets_mono {dm : DMap} {cells : List Nat} {u u' : List T} {val val' : Nat → Nat → Nat → T → Prop} (h : ∀ n c j y, cells[n]? = some c → val n c j y → val' n c j y)
    (hs : Sets dm cells id u u' val) : Sets dm cells id u u' val' := by
  refine ⟨hs.1, hs.2.1, ?_⟩
  intro n c j g hc hg hl
  obtain ⟨y, a, b⟩ := hs.2.2 n c j g hc hg hl
  exact ⟨y, h n c j y hc a, b⟩

/-- Interpolation of an array of values, component `m` at point `p` of the `n`-th cell in row `m` and column `n * npts + p`: dofs of the cells are the dofs of these values, all other
dofs are as before.  Symmetric matrices need point evaluations, maps other than the identity elements that are not blocked. -/
theorem C76_data_partial {e : Elem T} (he : ElemOk e) {dm : DMap} {cells : List Nat} {f u : List T} (hd : ∀ c ∈ cells, DofsOk dm (e.bs * e.dim) u.length c)
    (hf : f.length = e.vs * (cells.length * e.npts)) (hm : e.mapType ≠ 0 → e.bs = 1 ∧ e.npts ≠ 0) (hs : e.symmetric = true → e.mapType = 0 ∧ e.interpIdent = true) :
    ∃ u', interpolateData e dm cells f e.vs (cells.length * e.npts) u = some u' ∧
      Sets dm cells id u u' (fun n c j y => IsDof e c c (fun p m y => f[m * (cells.length * e.npts) + n * e.npts + p]? = some y) j y) := by
  unfold interpolateData
  rw [if_neg (by rcases he.notMixed with h | h <;> omega), if_neg (by simp [hf])]
  by_cases h0 : e.mapType = 0
  · have hI : e.mapIdent = true := by simp [Elem.mapIdent, h0]
    cases hi : e.interpIdent with
    | true =>
      rw [if_pos ⟨hI, rfl⟩]
      exact pointEvaluation_ok he h0 hi hd hf
    | false =>
      rw [if_neg (by simp), if_pos hI]
      have hs' : e.symmetric = false := by
        cases h : e.symmetric with
        | false => rfl
        | true => rw [(hs h).2] at hi; cases hi
      exact identityMapped_ok he h0 hs' hd hf
  · have hI : e.mapIdent = false := by simp [Elem.mapIdent, h0]
    rw [if_neg (by simp [hI]), if_neg (by simp [hI])]
    have hs' : e.symmetric = false := by
      cases h : e.symmetric with
      | false => rfl
      | true => exact absurd (hs h).1 h0
    exact piolaMapped_ok he (hm h0).1 hs' (hm h0).2 hd hf

/-- Interpolation of a callable that returned values `fx` of shape `(vs, N)`, or `(N)` for scalars. -/
theorem C76_callable_partial {e : Elem T} (he : ElemOk e) {dm : DMap} {cells : List Nat} {fx u : List T} {shape : List Nat} (hd : ∀ c ∈ cells, DofsOk dm (e.bs * e.dim) u.length c)
    (hshape : shape = [e.vs, cells.length * e.npts] ∨ (e.vs = 1 ∧ shape = [cells.length * e.npts])) (hf : fx.length = shape.prod)
    (hm : e.mapType ≠ 0 → e.bs = 1 ∧ e.npts ≠ 0) (hs : e.symmetric = true → e.mapType = 0 ∧ e.interpIdent = true) :
    ∃ u', interpolateCallable e dm cells fx shape u = some u' ∧
      Sets dm cells id u u' (fun n c j y => IsDof e c c (fun p m y => fx[m * (cells.length * e.npts) + n * e.npts + p]? = some y) j y) := by
  rcases hshape with h | ⟨h1, h⟩
  · subst h
    have hf' : fx.length = e.vs * (cells.length * e.npts) := by simpa using hf
    simp only [interpolateCallable, List.length_cons, List.length_nil, List.headD_cons, List.getLastD_cons, List.getLastD_nil]
    rw [if_neg (by omega), if_neg (by omega), if_neg (by simp), if_neg (by simp)]
    exact C76_data_partial he hd hf' hm hs
  · subst h
    have hf' : fx.length = e.vs * (cells.length * e.npts) := by rw [h1]; simpa using hf
    simp only [interpolateCallable]
    rw [if_pos ⟨h1, rfl⟩, if_neg (fun h => h rfl)]
    have := C76_data_partial he hd hf' hm hs
    rwa [h1] at this

/-- Values of another shape are refused. -/
theorem C76_callable_refuses (e : Elem T) (dm : DMap) (cells : List Nat) (fx u : List T) (shape : List Nat)
    (h : ¬(shape = [e.vs, cells.length * e.npts] ∨ (e.vs = 1 ∧ shape = [cells.length * e.npts]))) : interpolateCallable e dm cells fx shape u = none := by
  unfold interpolateCallable
  simp only
  match shape, h with
  | [], _ => simp
  | [a], h =>
    by_cases h1 : e.vs = 1
    · rw [if_pos ⟨h1, rfl⟩, if_pos]
      intro ha
      exact h (Or.inr ⟨h1, by rw [← ha]; rfl⟩)
    · rw [if_neg (by tauto), if_pos (by simp)]
  | [a, b], h =>
    simp only [List.length_cons, List.length_nil, List.headD_cons, List.getLastD_cons, List.getLastD_nil]
    rw [if_neg (by omega), if_neg (by omega)]
    by_cases ha : a = e.vs
    · rw [if_neg (by simp [ha]), if_pos]
      intro hb
      exact h (Or.inl (by rw [ha, hb]))
    · rw [if_pos ha]
  | a :: b :: c :: l, _ =>
    simp only [List.length_cons]
    rw [if_neg (by omega), if_pos (by omega)]

/-! ## Points for a callable -/

omit [CommRing T] in
theorem writes_fun (V : Nat → T) (ws : List (Nat × T)) (u : List T) (h : ∀ w ∈ ws, w.1 < u.length ∧ w.2 = V w.1) :
    ∃ u', writes ws u = some u' ∧ u'.length = u.length ∧ (∀ w ∈ ws, u'[w.1]? = some (V w.1)) ∧ ∀ g, (∀ w ∈ ws, w.1 ≠ g) → u'[g]? = u[g]? := by
  induction ws generalizing u with
  | nil => exact ⟨u, rfl, rfl, fun _ h => by simp at h, fun _ _ => rfl⟩
  | cons w ws ih =>
    obtain ⟨h0, hv⟩ := h w (by simp)
    obtain ⟨u', h1, h2, h3, h4⟩ := ih (u.set w.1 w.2) (fun v hv => by rw [List.length_set]; exact h v (List.mem_cons_of_mem _ hv))
    refine ⟨u', ?_, by rw [h2, List.length_set], ?_, ?_⟩
    · rw [writes, List.foldlM_cons, setAt, if_pos h0]
      exact h1
    · intro v hv'
      rcases List.mem_cons.mp hv' with rfl | hv'
      · by_cases hm : ∃ w' ∈ ws, w'.1 = v.1
        · obtain ⟨w', hw', e⟩ := hm
          rw [← e]
          exact h3 w' hw'
        · rw [h4 v.1 (fun w' hw' e => hm ⟨w', hw', e⟩), List.getElem?_set_self h0, hv]
      · exact h3 v hv'
    · intro g hg
      rw [h4 g (fun v hv => hg v (List.mem_cons_of_mem _ hv)), List.getElem?_set_ne (hg w (by simp))]

/-- The coordinates given to a callable: column `n * npts + p` is the image of interpolation point `p` in the `n`-th cell, coordinates beyond the dimension of the mesh are zero. -/
theorem C76_points {gdim npts ndofs : Nat} (hg : gdim ≤ 3) (phi : Nat → Nat → T) {xdofs : List (List Nat)} {xg : List (List T)} {cells : List Nat}
    (hc : ∀ c ∈ cells, ∃ nodes, xdofs[c]? = some nodes ∧ nodes.length = ndofs ∧ ∀ n ∈ nodes, ∃ v, xg[n]? = some v) :
    ∃ x, interpolationCoords gdim npts ndofs phi xdofs xg cells = some x ∧ x.length = 3 * (cells.length * npts) ∧
      ∀ (n c p j : Nat), cells[n]? = some c → p < npts → j < 3 → ∃ y, x[j * (cells.length * npts) + n * npts + p]? = some y ∧
        (gdim ≤ j → y = 0) ∧
        (j < gdim → ∃ X : Nat → T, y = ∑ k ∈ Finset.range ndofs, phi p k * X k ∧
          ∀ k < ndofs, ∃ nodes node v, xdofs[c]? = some nodes ∧ nodes[k]? = some node ∧ xg[node]? = some v ∧ X k = v.getD j 0) := by
  obtain ⟨N, hN⟩ : ∃ N, N = cells.length * npts := ⟨_, rfl⟩
  obtain ⟨nodes, hnodes⟩ : ∃ nodes : Nat → List Nat, ∀ c ∈ cells, xdofs[c]? = some (nodes c) ∧ (nodes c).length = ndofs ∧ ∀ n ∈ nodes c, ∃ v, xg[n]? = some v := by
    have : ∀ c, ∃ nodes : List Nat, c ∈ cells → xdofs[c]? = some nodes ∧ nodes.length = ndofs ∧ ∀ n ∈ nodes, ∃ v, xg[n]? = some v := by
      intro c
      by_cases h : c ∈ cells
      · obtain ⟨nodes, q⟩ := hc c h
        exact ⟨nodes, fun _ => q⟩
      · exact ⟨[], fun h' => absurd h' h⟩
    choose f hf using this
    exact ⟨f, hf⟩
  let X : Nat → Nat → Nat → T := fun c k j => (xg.getD ((nodes c).getD k 0) []).getD j 0
  let V : Nat → Nat → Nat → T := fun n p j => sumTo ndofs fun k => phi p k * X (cells.getD n 0) k j
  let W : Nat → T := fun g => V (g % N / npts) (g % N % npts) (g / N)
  have hplace : ∀ n p j, n < cells.length → p < npts → W (j * N + n * npts + p) = V n p j := by
    intro n p j hn hp
    have hr : n * npts + p < N := by rw [hN]; nlinarith
    have h1 : (j * N + n * npts + p) % N = n * npts + p := by
      rw [add_assoc, mul_comm j, Nat.mul_add_mod, Nat.mod_eq_of_lt hr]
    have h2 : (j * N + n * npts + p) / N = j := by
      rw [add_assoc, mul_comm j, Nat.mul_add_div (by omega), Nat.div_eq_of_lt hr, Nat.add_zero]
    simp only [W, h1, h2]
    rw [mul_comm n, Nat.mul_add_div (by omega), Nat.div_eq_of_lt hp, Nat.add_zero, Nat.mul_add_mod, Nat.mod_eq_of_lt hp]
  let ws : List (Nat × T) := cells.zipIdx.flatMap fun c => (List.range npts).flatMap fun p => (List.range gdim).map fun j => (j * N + c.2 * npts + p, V c.2 p j)
  have hws : ∀ w, w ∈ ws ↔ ∃ n p j, n < cells.length ∧ p < npts ∧ j < gdim ∧ w = (j * N + n * npts + p, V n p j) := by
    intro w
    simp only [ws, List.mem_flatMap, List.mem_map, List.mem_range]
    constructor
    · rintro ⟨a, ha, p, hp, j, hj, rfl⟩
      exact ⟨a.2, p, j, (zipIdx_mem ha).2, hp, hj, rfl⟩
    · rintro ⟨n, p, j, hn, hp, hj, rfl⟩
      refine ⟨(cells[n], n), ?_, p, hp, j, hj, rfl⟩
      exact List.mem_of_getElem? (i := n) (by simp [hn])
  have hrun : interpolationCoords gdim npts ndofs phi xdofs xg cells = writes ws (List.replicate (3 * (cells.length * npts)) 0) := by
    simp only [interpolationCoords, ws, writes]
    rw [foldlM_flatMap']
    refine foldlM_congr' _ _ _ ?_ _
    intro a ha s
    obtain ⟨hca, hla⟩ := zipIdx_mem ha
    obtain ⟨q1, q2, q3⟩ := hnodes a.1 (List.mem_of_getElem? hca)
    have hm : (nodes a.1).mapM (fun n => xg[n]?) = some ((nodes a.1).map fun n => xg.getD n []) := by
      refine mapM_eq_map _ _ _ ?_
      intro n hn
      obtain ⟨v, hv⟩ := q3 n hn
      simp [hv]
    rw [q1, Option.bind_some, hm, Option.bind_some, foldlM_flatMap']
    refine foldlM_congr' _ _ _ ?_ _
    intro p hp s
    rw [foldlM_map']
    refine foldlM_congr' _ _ _ ?_ _
    intro j hj s
    rw [← hN]
    congr 1
    simp only [V]
    have hcc : cells.getD a.2 0 = a.1 := by rw [List.getD_eq_getElem?_getD, hca, Option.getD_some]
    rw [hcc, sumTo_eq, sumTo_eq]
    congr 1
    refine Finset.sum_congr rfl fun k hk => ?_
    have hk := Finset.mem_range.mp hk
    congr 1
    simp only [X]
    congr 1
    simp [q2, hk]
  have hlen : (List.replicate (3 * (cells.length * npts)) (0 : T)).length = 3 * N := by rw [List.length_replicate, hN]
  obtain ⟨x, r1, r2, r3, r4⟩ := writes_fun W ws (List.replicate (3 * (cells.length * npts)) 0) (by
    intro w hw
    obtain ⟨n, p, j, hn, hp, hj, rfl⟩ := (hws w).mp hw
    refine ⟨?_, (hplace n p j hn hp).symm⟩
    have := entry_lt (vs := 3) (show j < 3 by omega) hn hp
    rw [← hN] at this
    rw [hlen]
    exact this)
  rw [hlen] at r2
  refine ⟨x, by rw [hrun, r1], by rw [r2, hN], ?_⟩
  intro n c p j hnc hp hj
  have hn : n < cells.length := (List.getElem?_eq_some_iff.mp hnc).1
  rw [← hN]
  by_cases hjg : j < gdim
  · refine ⟨V n p j, ?_, fun h => by omega, fun _ => ⟨fun k => X c k j, ?_, ?_⟩⟩
    · rw [← hplace n p j hn hp]
      exact r3 _ ((hws _).mpr ⟨n, p, j, hn, hp, hjg, rfl⟩)
    · simp only [V]
      rw [sumTo_eq, zero_add]
      have hcc : cells.getD n 0 = c := by rw [List.getD_eq_getElem?_getD, hnc, Option.getD_some]
      rw [hcc]
    · intro k hk
      obtain ⟨q1, q2, q3⟩ := hnodes c (List.mem_of_getElem? hnc)
      have hk' : k < (nodes c).length := by omega
      obtain ⟨v, hv⟩ := q3 (nodes c)[k] (List.getElem_mem hk')
      refine ⟨nodes c, (nodes c)[k], v, q1, List.getElem?_eq_getElem hk', hv, ?_⟩
      simp [X, hk', hv]
  · refine ⟨0, ?_, fun _ => rfl, fun h => absurd h hjg⟩
    rw [r4]
    · have := entry_lt (vs := 3) hj hn hp
      rw [List.getElem?_replicate, if_pos (by rw [← hN] at this ⊢; exact this)]
    · intro w hw h
      obtain ⟨n', p', j', hn', hp', hj', rfl⟩ := (hws w).mp hw
      have b1 : n * npts + p < N := by rw [hN]; nlinarith
      have b2 : n' * npts + p' < N := by rw [hN]; nlinarith
      simp only at h
      have h1 : (j' * N + n' * npts + p') / N = j' := by
        rw [add_assoc, mul_comm j', Nat.mul_add_div (by omega), Nat.div_eq_of_lt b2, Nat.add_zero]
      have h2 : (j * N + n * npts + p) / N = j := by
        rw [add_assoc, mul_comm j, Nat.mul_add_div (by omega), Nat.div_eq_of_lt b1, Nat.add_zero]
      rw [h, h2] at h1
      omega

/-! ## Expressions -/

omit [CommRing T] in
theorem transposeExpr_ok {nc np vs : Nat} {f : List T} (hf : f.length = nc * np * vs) : ∃ f1, transposeExpr nc np vs f = some f1 ∧ f1.length = vs * (nc * np) ∧
    ∀ (k i j : Nat) (y : T), i < nc → j < np → f1[k * (nc * np) + i * np + j]? = some y → f[(i * np + j) * vs + k]? = some y := by
  have hin : ∀ q < vs * (nc * np), q % (nc * np) * vs + q / (nc * np) < f.length := by
    intro q hq
    have hN : 0 < nc * np := Nat.pos_of_ne_zero fun h => by simp [h] at hq
    have h1 := Nat.mod_lt q hN
    have h2 : q / (nc * np) < vs := by rwa [Nat.div_lt_iff_lt_mul hN]
    rw [hf]
    nlinarith
  have hm : ∀ l : List Nat, (∀ q ∈ l, q < vs * (nc * np)) → ∃ f1, l.mapM (fun q => f[q % (nc * np) * vs + q / (nc * np)]?) = some f1 ∧ f1.length = l.length ∧
      ∀ (i : Nat) (y : T), f1[i]? = some y → ∃ q, l[i]? = some q ∧ f[q % (nc * np) * vs + q / (nc * np)]? = some y := by
    intro l
    induction l with
    | nil => exact fun _ => ⟨[], rfl, rfl, fun i y h => by simp at h⟩
    | cons a l ih =>
      intro h
      obtain ⟨f1, e1, e2, e3⟩ := ih (fun q hq => h q (List.mem_cons_of_mem _ hq))
      have ha := hin a (h a (by simp))
      refine ⟨f[a % (nc * np) * vs + a / (nc * np)] :: f1, ?_, by simp [e2], ?_⟩
      · rw [List.mapM_cons, e1, List.getElem?_eq_getElem ha]
        rfl
      · intro i y hy
        cases i with
        | zero =>
          refine ⟨a, rfl, ?_⟩
          rw [List.getElem?_eq_getElem ha]
          simpa using hy
        | succ i => simpa using e3 i y (by simpa using hy)
  obtain ⟨f1, e1, e2, e3⟩ := hm (List.range (vs * (nc * np))) (fun q hq => List.mem_range.mp hq)
  refine ⟨f1, e1, by simpa using e2, ?_⟩
  intro k i j y hi hj hy
  obtain ⟨q, q1, q2⟩ := e3 _ y hy
  have hq : k * (nc * np) + i * np + j = q := by
    obtain ⟨hl, hq⟩ := List.getElem?_eq_some_iff.mp q1
    simpa using hq
  subst hq
  have hr : i * np + j < nc * np := by nlinarith
  have h1 : (k * (nc * np) + i * np + j) % (nc * np) = i * np + j := by
    rw [add_assoc, mul_comm k, Nat.mul_add_mod, Nat.mod_eq_of_lt hr]
  have h2 : (k * (nc * np) + i * np + j) / (nc * np) = k := by
    rw [add_assoc, mul_comm k, Nat.mul_add_div (by omega), Nat.div_eq_of_lt hr, Nat.add_zero]
  rwa [h1, h2] at q2

/-- Interpolation of an expression with values `f`, component `m` at point `p` of the `n`-th cell of `cells0`, into the `n`-th cell of `cells1`. -/
theorem C76_expression_partial {e : Elem T} (he : ElemOk e) {dm : DMap} {cells0 cells1 : List Nat} {f u : List T} (hl : cells0.length = cells1.length)
    (hd : ∀ c ∈ cells1, DofsOk dm (e.bs * e.dim) u.length c) (hf : f.length = cells0.length * e.npts * e.vs)
    (hm : e.mapType ≠ 0 → e.bs = 1 ∧ e.npts ≠ 0) (hs : e.symmetric = true → e.mapType = 0 ∧ e.interpIdent = true) :
    ∃ u', interpolateExpr e dm cells0 cells1 f e.vs false true u = some u' ∧
      Sets dm cells1 id u u' (fun n c j y => IsDof e c c (fun p m y => f[(n * e.npts + p) * e.vs + m]? = some y) j y) := by
  obtain ⟨f1, e1, e2, e3⟩ := transposeExpr_ok hf
  obtain ⟨u', r1, r2⟩ := C76_data_partial he hd (f := f1) (by rw [e2, hl]) hm hs
  refine ⟨u', ?_, ?_⟩
  · unfold interpolateExpr
    rw [if_neg (by omega), if_neg (by simp), if_neg (by simp), if_neg (by simp), e1, Option.bind_some, hl, r1]
  · refine sets_mono ?_ r2
    intro n c j y hc h
    refine isDof_mono ?_ h
    intro p hp m y hy
    rw [← hl] at hy
    exact e3 m n p y (by rw [hl]; exact (List.getElem?_eq_some_iff.mp hc).1) hp hy

/-- An expression with an argument, with another value size or other points is refused. -/
theorem C76_expression_refuses (e : Elem T) (dm : DMap) (cells0 cells1 : List Nat) (f u : List T) (vs : Nat) (arg same : Bool)
    (h : cells0.length ≠ cells1.length ∨ vs ≠ e.vs ∨ arg = true ∨ same = false) : interpolateExpr e dm cells0 cells1 f vs arg same u = none := by
  unfold interpolateExpr
  split
  · rfl
  · split
    · rfl
    · split
      · rfl
      · split
        · rfl
        · simp_all

/-! ## Functions -/

section
variable {e1 e0 : Elem T} (h1 : ElemOk e1) (h0 : ElemOk e0) {dm0 dm1 : DMap} {cells0 cells1 : List Nat} {u0 u1 : List T}
  (hl : cells0.length = cells1.length)
  (hd : ∀ c ∈ cells0.zip cells1, DofsOk dm0 (e0.bs * e0.dim) u0.length c.1 ∧ DofsOk dm1 (e1.bs * e1.dim) u1.length c.2)
include hl hd

/-- Same mesh and element: dofs of the cells are copied. -/
theorem C76_same {op : Nat → Nat → T} {phi : Nat → Nat → Nat → Nat → T} (hv : e0.valueShape = e1.valueShape) (hb : e0.bs = e1.bs) (hdim : e0.dim = e1.dim)
    (he : e1.id = e0.id ∨ (e1.basix ≠ none ∧ e1.basix = e0.basix)) :
    ∃ u1', interpolateFn e1 dm1 cells1 e0 u0 dm0 cells0 true op phi u1 = some u1' ∧
      Sets dm1 (cells0.zip cells1) Prod.snd u1 u1' (fun _ c j y => ∃ g, flat dm0 c.1 j = some g ∧ u0[g]? = some y) := by
  unfold interpolateFn
  rw [if_neg (by omega), if_neg (by simp [hv]), if_neg ?_, if_pos ⟨rfl, he.imp id And.right⟩, if_neg (by simp [hb])]
  · rw [hb, hdim] at hd
    exact interpolateSame_ok hd
  · rintro ⟨_, h2, h3⟩
    rcases he with h | ⟨h, h'⟩
    · exact h2 h
    · rcases h3 with h3 | h3
      · exact h h3
      · exact h (h'.trans h3)

include h1 h0

/-- Another element with the same map of basis functions, or another mesh: the dofs are those of the function. -/
theorem C76_same_map {op : Nat → Nat → T} {phi : Nat → Nat → Nat → Nat → T} {B : Nat → Nat → Nat → T} {sameMesh : Bool} (hv : e0.valueShape = e1.valueShape)
    (hs : e0.symmetric = e1.symmetric) (hbs : e1.bs = 1 ∨ e0.bs = 1 ∨ e0.bs = e1.bs) (hx : e1.basix ≠ none ∧ e0.basix ≠ none)
    (hne : sameMesh = true → e1.id ≠ e0.id ∧ e1.basix ≠ e0.basix) (hm : e1.mapType = e0.mapType)
    (hop : if e1.bs = 1 ∨ e0.bs = 1 then op = basixOp e1 B e1.bs e0.bs else op = basixOp e1 B 1 1) (hB : ∀ c ∈ cells0, PullsBack e1 e0 c (phi c) B) :
    ∃ u1', interpolateFn e1 dm1 cells1 e0 u0 dm0 cells0 sameMesh op phi u1 = some u1' ∧
      Sets dm1 (cells0.zip cells1) Prod.snd u1 u1' (fun _ c j y => IsDof e1 c.1 c.2 (fun p => IsValue e0 dm0 u0 c.1 (phi c.1 p)) j y) := by
  unfold interpolateFn
  rw [if_neg (by omega), if_neg (by simp [hv]), if_neg (by tauto), if_neg (by tauto), if_neg (by tauto), if_pos hm]
  exact sameMap_ok h1 h0 (by rw [h0.shape, h1.shape, hv]) hs hd hbs hop hB

/-- Another element with another map of basis functions. -/
theorem C76_other_map_partial {op : Nat → Nat → T} (phi : Nat → Nat → Nat → Nat → T) {sameMesh : Bool} (hv : e0.valueShape = e1.valueShape)
    (hs1 : e1.symmetric = false) (hs0 : e0.symmetric = false) (hx : e1.basix ≠ none ∧ e0.basix ≠ none)
    (hne : sameMesh = true → e1.id ≠ e0.id ∧ e1.basix ≠ e0.basix) (hm : e1.mapType ≠ e0.mapType) :
    ∃ u1', interpolateFn e1 dm1 cells1 e0 u0 dm0 cells0 sameMesh op phi u1 = some u1' ∧
      Sets dm1 (cells0.zip cells1) Prod.snd u1 u1' (fun _ c j y => IsDof e1 c.1 c.2 (fun p => IsValue e0 dm0 u0 c.1 (phi c.1 p)) j y) := by
  unfold interpolateFn
  rw [if_neg (by omega), if_neg (by simp [hv]), if_neg (by tauto), if_neg (by tauto), if_neg (by tauto), if_neg hm]
  exact otherMap_ok h1 h0 (by rw [h0.shape, h1.shape, hv]) hs1 hs0 hd phi

end

/-- Functions of other value shapes are refused. -/
theorem C76_shape_refused (e1 e0 : Elem T) (dm0 dm1 : DMap) (cells0 cells1 : List Nat) (u0 u1 : List T) (op : Nat → Nat → T) (phi : Nat → Nat → Nat → Nat → T) (sameMesh : Bool)
    (h : cells0.length ≠ cells1.length ∨ e0.valueShape ≠ e1.valueShape) : interpolateFn e1 dm1 cells1 e0 u0 dm0 cells0 sameMesh op phi u1 = none := by
  unfold interpolateFn
  split
  · rfl
  · rw [if_pos (by tauto)]

omit [CommRing T] in
/-- If all cells have the same value `F g` for their common dofs, then all dofs of the cells have that value, in any order of the cells. -/
theorem C76_conforming {dm : DMap} {α : Type} {cells : List α} {cell : α → Nat} {u u' : List T} {val : Nat → α → Nat → T → Prop} (h : Sets dm cells cell u u' val) (F : Nat → T)
    (hF : ∀ (n : Nat) (a : α) (j g : Nat) (y : T), cells[n]? = some a → flat dm (cell a) j = some g → val n a j y → y = F g) :
    ∀ (a : α) (j g : Nat), a ∈ cells → flat dm (cell a) j = some g → u'[g]? = some (F g) := by
  intro a j g ha hg
  obtain ⟨n, hn⟩ := List.mem_iff_getElem?.mp ha
  have key : ∀ d n (a : α) (j : Nat), cells.length ≤ n + d → cells[n]? = some a → flat dm (cell a) j = some g → u'[g]? = some (F g) := by
    intro d
    induction d with
    | zero =>
      intro n a j hd hn
      have := (List.getElem?_eq_some_iff.mp hn).1
      omega
    | succ d ih =>
      intro n a j hd hn hg
      by_cases hl : ∃ (n' : Nat) (a' : α) (j' : Nat), n < n' ∧ cells[n']? = some a' ∧ flat dm (cell a') j' = some g
      · obtain ⟨n', a', j', q1, q2, q3⟩ := hl
        exact ih n' a' j' (by omega) q2 q3
      · obtain ⟨y, q1, q2⟩ := h.2.2 n a j g hn hg (fun n' a' j' q1 q2 q3 => hl ⟨n', a', j', q1, q2, q3⟩)
        rw [q2, hF n a j g y hn hg q1]
  exact key cells.length n a j (by omega) hn hg

/-! ## Where the statements do not hold -/

/-- Blocked elements with a map that is not the identity: interpolation of values fails (an assertion; without assertions, the loop over blocks of `interpolation_apply` writes beyond the
coefficients of a block). -/
theorem C76_refuted_blocked_piola {e : Elem T} (he : ElemOk e) (hb : e.bs ≠ 1) (hm : e.mapType ≠ 0) (dm : DMap) (c : Nat) (cells : List Nat) (f u : List T) (s0 s1 : Nat) :
    interpolateData e dm (c :: cells) f s0 s1 u = none := by
  have hr : e.rvs = 1 := by rcases he.block with h | h <;> tauto
  have hI : e.mapIdent = false := by simp [Elem.mapIdent, hm]
  unfold interpolateData
  split
  · rfl
  split
  · rfl
  rw [if_neg (by simp [hI]), if_neg (by simp [hI])]
  unfold piolaMapped
  split
  · rfl
  rw [List.zipIdx_cons, List.foldlM_cons]
  have hz : List.range e.bs = 0 :: (List.range (e.bs - 1)).map (· + 1) := by
    have hbs := he.bs
    conv_lhs => rw [show e.bs = (e.bs - 1) + 1 by omega]
    exact List.range_succ_eq_map
  have hnone : ∀ data n, interpolationApply e e.npts e.rvs data e.bs n = none := by
    intro data n
    rw [interpolationApply, if_neg hb, if_neg]
    rintro ⟨_, h, _⟩
    omega
  simp only [hnone, Option.bind_none]
  cases dm.dofs[c]? with
  | none => rfl
  | some ds =>
    rw [Option.bind_some, hz, List.foldlM_cons]
    simp only [Option.bind_fun_none]
    rfl

/-! ## Examples -/

namespace C76ex

/-- Vector-valued linear elements on triangles. -/
def p1v : Elem Int where
  bs := 2
  dim := 3
  vs := 2
  rvs := 1
  npts := 3
  valueShape := [2]
  symmetric := false
  numSub := 2
  id := 1
  basix := some 7
  mapType := 0
  interpIdent := true
  piCols := 3
  Pi i j := if i = j then 1 else 0
  trans _ v := v
  transT _ v := v
  invTransT _ v := v
  pull _ _ v := v

/-- Symmetric matrices, constant on each cell. -/
def sym0 : Elem Int := { p1v with bs := 3, dim := 1, vs := 4, npts := 1, valueShape := [2, 2], symmetric := true, numSub := 3, id := 2, basix := some 8, piCols := 1 }

/-- Matrices, constant on each cell, all four entries with one map, scaled by 2. -/
def mat0 : Elem Int := { p1v with bs := 1, dim := 4, vs := 4, rvs := 4, npts := 1, valueShape := [2, 2], numSub := 0, id := 3, basix := some 9, mapType := 1, interpIdent := false,
                                  piCols := 4, pull := fun _ _ v m => 2 * v m }

/-- Linear elements, blocked, in an element that has the values in another basis: the sum of the first and second dof is the first value. -/
def p1b : Elem Int := { p1v with id := 4, basix := some 10, interpIdent := false, Pi := fun i j => if i = j then 1 else if i = 0 ∧ j = 1 then -1 else 0 }

theorem p1v_ok : ElemOk p1v :=
  ⟨by decide, by decide, by decide, by decide, fun h => absurd h (by decide), by decide, by decide, by decide, fun _ _ _ _ _ => rfl, fun _ _ _ _ h m hm => h m hm,
    fun _ _ _ v m => rfl, by decide, fun _ _ _ h i hi => h i hi⟩

theorem sym0_ok : ElemOk sym0 :=
  ⟨by decide, by decide, by decide, by decide, fun _ => ⟨rfl, 2, rfl, rfl⟩, by decide, by decide, by decide, fun _ _ _ _ _ => rfl, fun _ _ _ _ h m hm => h m hm,
    fun _ _ _ v m => rfl, by decide, fun _ _ _ h i hi => h i hi⟩

theorem mat0_ok : ElemOk mat0 :=
  ⟨by decide, by decide, by decide, by decide, fun h => absurd h (by decide), by decide, by decide, by decide, fun h => absurd h (by decide),
    fun _ _ _ _ h m hm => by show 2 * _ = 2 * _; rw [h m hm], fun h => absurd rfl h, by decide, fun _ _ _ h i hi => h i hi⟩

theorem p1b_ok : ElemOk p1b :=
  ⟨by decide, by decide, by decide, by decide, fun h => absurd h (by decide), by decide, by decide, by decide, fun _ _ _ _ _ => rfl, fun _ _ _ _ h m hm => h m hm,
    fun _ _ _ v m => rfl, by decide, fun _ _ _ h i hi => h i hi⟩

/-- Two triangles with four vertices. -/
def dm2 : DMap := ⟨2, [[0, 1, 2], [3, 2, 1]]⟩

/-- The same dofs, not in blocks and numbered in another order. -/
def dm2' : DMap := ⟨1, [[0, 4, 1, 5, 2, 6], [3, 7, 2, 6, 1, 5]]⟩

theorem dm2_ok : ∀ c ∈ [1, 0], DofsOk dm2 6 8 c := by
  intro c hc
  refine ⟨by decide, ?_⟩
  rcases List.mem_cons.mp hc with rfl | hc
  · exact ⟨_, rfl, by decide, by decide, by decide⟩
  · rcases List.mem_cons.mp hc with rfl | hc
    · exact ⟨_, rfl, by decide, by decide, by decide⟩
    · cases hc

theorem dm2'_ok : ∀ c ∈ [1, 0], DofsOk dm2' 6 8 c := by
  intro c hc
  refine ⟨by decide, ?_⟩
  rcases List.mem_cons.mp hc with rfl | hc
  · exact ⟨_, rfl, by decide, by decide, by decide⟩
  · rcases List.mem_cons.mp hc with rfl | hc
    · exact ⟨_, rfl, by decide, by decide, by decide⟩
    · cases hc

/-- Values at the vertices of cells 1 and 0, in two rows. -/
def vals : List Int := [3, 2, 1, 0, 1, 2, 13, 12, 11, 10, 11, 12]

example : ∃ u', interpolateCallable p1v dm2 [1, 0] vals [2, 6] (List.replicate 8 0) = some u' ∧ Sets dm2 [1, 0] id (List.replicate 8 0) u'
    (fun n c j y => IsDof p1v c c (fun p m y => vals[m * 6 + n * 3 + p]? = some y) j y) :=
  C76_callable_partial p1v_ok dm2_ok (Or.inl rfl) rfl (by decide) (by decide)
example : interpolateCallable p1v dm2 [1, 0] vals [2, 6] (List.replicate 8 0) = some [0, 10, 1, 11, 2, 12, 3, 13] := by decide
example : interpolateCallable p1v dm2' [1, 0] vals [2, 6] (List.replicate 8 0) = some [0, 1, 2, 3, 10, 11, 12, 13] := by decide
example : interpolateCallable p1v dm2 [1, 0] vals [12] (List.replicate 8 0) = none := C76_callable_refuses _ _ _ _ _ _ (by decide)
example : interpolateData p1b dm2 [1, 0] vals 2 6 (List.replicate 8 0) = some [-1, -1, 1, 11, 2, 12, 1, 1] := by decide

/-- The lower triangle of a symmetric matrix. -/
example : interpolateData sym0 ⟨3, [[0]]⟩ [0] [1, 2, 3, 4] 4 1 [0, 0, 0] = some [1, 3, 4] := by decide
example : ∃ u', interpolateData sym0 ⟨3, [[0]]⟩ [0] [1, 2, 3, 4] 4 1 [0, 0, 0] = some u' ∧ Sets ⟨3, [[0]]⟩ [0] id [0, 0, 0] u'
    (fun n c j y => IsDof sym0 c c (fun p m y => [1, 2, 3, 4][m * 1 + n * 1 + p]? = some y) j y) :=
  C76_data_partial sym0_ok (by intro c hc; cases List.mem_singleton.mp hc; exact ⟨by decide, _, rfl, by decide, by decide, by decide⟩) rfl (by decide) (by decide)

example : interpolateData mat0 ⟨1, [[0, 1, 2, 3]]⟩ [0] [1, 2, 3, 4] 4 1 [0, 0, 0, 0] = some [2, 4, 6, 8] := by decide
example : ∃ u', interpolateExpr mat0 ⟨1, [[4, 5, 6, 7], [0, 1, 2, 3]]⟩ [5, 3] [1, 0] [1, 2, 3, 4, 5, 6, 7, 8] 4 false true (List.replicate 8 0) = some u' ∧
    Sets ⟨1, [[4, 5, 6, 7], [0, 1, 2, 3]]⟩ [1, 0] id (List.replicate 8 0) u'
      (fun n c j y => IsDof mat0 c c (fun p m y => [1, 2, 3, 4, 5, 6, 7, 8][(n * 1 + p) * 4 + m]? = some y) j y) :=
  C76_expression_partial mat0_ok rfl (by
    intro c hc
    refine ⟨by decide, ?_⟩
    rcases List.mem_cons.mp hc with rfl | hc
    · exact ⟨_, rfl, by decide, by decide, by decide⟩
    · cases List.mem_singleton.mp hc
      exact ⟨_, rfl, by decide, by decide, by decide⟩) rfl (by decide) (by decide)

/-- Points of two intervals, of which the second one is reversed. -/
example : interpolationCoords 1 2 2 (fun p k => if p = k then 1 else 0) [[0, 1], [2, 1]] [[5, 0, 0], [7, 0, 0], [9, 0, 0]] [0, 1] = some [5, 7, 9, 7, 0, 0, 0, 0, 0, 0, 0, (0 : Int)] := by
  decide

/-- Dofs of a function in blocks to one that is not. -/
example : ∃ u', interpolateFn p1v dm2' [1, 0] p1v [0, 10, 1, 11, 2, 12, 3, 13] dm2 [1, 0] true (fun _ _ => 0) (fun _ _ _ _ => 0) (List.replicate 8 0) = some u' ∧
    Sets dm2' [(1, 1), (0, 0)] Prod.snd (List.replicate 8 0) u' (fun _ c j y => ∃ g, flat dm2 c.1 j = some g ∧ [0, 10, 1, 11, 2, 12, 3, (13 : Int)][g]? = some y) :=
  C76_same (e0 := p1v) (cells0 := [1, 0]) rfl (by
    intro c hc
    have h : c.1 ∈ [1, 0] ∧ c.2 ∈ [1, 0] := List.of_mem_zip hc
    exact ⟨dm2_ok _ h.1, dm2'_ok _ h.2⟩) rfl rfl rfl (Or.inl rfl)

/-- The values of the basis functions of `p1v` at the points of `p1b`. -/
def hat : Nat → Nat → Nat → Int := fun p i _ => if p = i then 1 else 0

theorem pullsBack_ident {e1 e0 : Elem Int} (h1 : ∀ c p v m, e1.pull c p v m = v m) (h0 : ∀ c v i, e0.transT c v i = v i) (hb : 0 < e0.bs) (c : Nat) (B : Nat → Nat → Nat → Int) :
    PullsBack e1 e0 c B B := by
  intro p hp co k hk m hm
  rw [h1, expand, expand]
  refine Finset.sum_congr rfl fun i _ => ?_
  rw [h0, Nat.mul_add_mod, Nat.mul_add_div hb, Nat.mod_mod, Nat.div_eq_of_lt (Nat.mod_lt _ hb), Nat.add_zero]

example : ∃ u', interpolateFn p1b dm2' [1, 0] p1v [0, 10, 1, 11, 2, 12, 3, 13] dm2 [1, 0] true (basixOp p1b hat 1 1) (fun _ => hat) (List.replicate 8 0) = some u' ∧
    Sets dm2' [(1, 1), (0, 0)] Prod.snd (List.replicate 8 0) u' (fun _ c j y => IsDof p1b c.1 c.2 (fun p => IsValue p1v dm2 [0, 10, 1, 11, 2, 12, 3, 13] c.1 (hat p)) j y) :=
  C76_same_map p1b_ok p1v_ok (cells0 := [1, 0]) (phi := fun _ => hat) (B := hat) rfl (by
    intro c hc
    have h : c.1 ∈ [1, 0] ∧ c.2 ∈ [1, 0] := List.of_mem_zip hc
    exact ⟨dm2_ok _ h.1, dm2'_ok _ h.2⟩) rfl rfl (by decide) (by decide) (by decide) rfl (by rw [if_neg (by decide)])
    (fun c _ => pullsBack_ident (fun _ _ _ _ => rfl) (fun _ _ _ => rfl) (by decide) c hat)
example : interpolateFn p1b dm2' [1, 0] p1v [0, 10, 1, 11, 2, 12, 3, 13] dm2 [1, 0] true (fun i j => if i = j then 1 else if i = 0 ∧ j = 1 then -1 else 0) (fun _ => hat)
    (List.replicate 8 0) = some [-1, 1, 2, 1, -1, 11, 12, (1 : Int)] := by decide

/-- Matrices in four blocks. -/
def blk0 : Elem Int := { sym0 with bs := 4, symmetric := false, numSub := 4, id := 5 }

theorem blk0_ok : ElemOk blk0 :=
  ⟨by decide, by decide, by decide, by decide, fun h => absurd h (by decide), by decide, by decide, by decide, fun _ _ _ _ _ => rfl, fun _ _ _ _ h m hm => h m hm,
    fun _ _ _ v m => rfl, by decide, fun _ _ _ h i hi => h i hi⟩

def one : Nat → Nat → Nat → Nat → Int := fun _ _ _ _ => 1

example : ∃ u', interpolateFn mat0 ⟨1, [[0, 1, 2, 3]]⟩ [0] blk0 [1, 2, 2, 3] ⟨4, [[0]]⟩ [0] true (fun _ _ => 0) one [0, 0, 0, 0] = some u' ∧
    Sets ⟨1, [[0, 1, 2, 3]]⟩ [(0, 0)] Prod.snd [0, 0, 0, 0] u' (fun _ c j y => IsDof mat0 c.1 c.2 (fun p => IsValue blk0 ⟨4, [[0]]⟩ [1, 2, 2, 3] c.1 (one c.1 p)) j y) :=
  C76_other_map_partial mat0_ok blk0_ok (cells0 := [0]) rfl (by
    intro c hc
    cases List.mem_singleton.mp hc
    exact ⟨⟨by decide, _, rfl, by decide, by decide, by decide⟩, by decide, _, rfl, by decide, by decide, by decide⟩) one rfl rfl rfl (by decide) (by decide) (by decide)
example : interpolateFn mat0 ⟨1, [[0, 1, 2, 3]]⟩ [0] blk0 [1, 2, 2, 3] ⟨4, [[0]]⟩ [0] true (fun _ _ => 0) one [0, 0, 0, 0] = some [2, 4, 4, 6] := by decide

end C76ex

open C76ex in
/-- The symmetric matrix with entries 1, 2, 3 interpolated into an element with another map: the dofs should be (2, 4, 4, 6), as for the same matrix in four blocks, but entry (1, 0)
gets the value of entry (1, 1), which gets zero. -/
theorem C76_refuted_symmetric :
    interpolateFn mat0 ⟨1, [[0, 1, 2, 3]]⟩ [0] sym0 [1, 2, 3] ⟨3, [[0]]⟩ [0] true (fun _ _ => 0) one [0, 0, 0, 0] = some [2, 4, 6, 0] ∧
      (∀ y, IsValue sym0 ⟨3, [[0]]⟩ [1, 2, 3] 0 (one 0 0) 3 y → y = 3) ∧ ¬IsDof mat0 0 0 (fun p => IsValue sym0 ⟨3, [[0]]⟩ [1, 2, 3] 0 (one 0 p)) 3 0 := by
  have key : ∀ y, IsValue sym0 ⟨3, [[0]]⟩ [1, 2, 3] 0 (one 0 0) 3 y → y = 3 := by
    rintro y ⟨k, hk, j, hj, hc, co, h1, rfl⟩
    have hk3 : k < 3 := hk
    have hj0 : j = 0 := by have : j < 1 := hj; omega
    subst hj0
    have hk2 : k = 2 := by
      have hsq : ∀ ms, 4 = ms * ms → ms = 2 := by
        intro ms h
        have : ms ≤ 4 := by nlinarith
        interval_cases ms <;> omega
      rcases hc with hc | ⟨_, r, s, ms, e1, e2, e3, e4, hc⟩
      · obtain ⟨r, s, ms, a1, a2, a3, a4, a5, a6⟩ : ∃ r s ms, s ≤ r ∧ r < ms ∧ 4 = ms * ms ∧ 2 * k = r * (r + 1) + 2 * s ∧ 0 = 0 ∧ 3 = r * ms + s := hc
        have := hsq ms a3
        subst this
        have : r = 1 := by omega
        subst this
        omega
      · have := hsq ms e1
        subst this
        have hrs : r = 1 ∧ s = 1 := by omega
        obtain ⟨rfl, rfl⟩ := hrs
        obtain ⟨r, s, ms, a1, a2, a3, a4, a5, a6⟩ : ∃ r s ms, s ≤ r ∧ r < ms ∧ 4 = ms * ms ∧ 2 * k = r * (r + 1) + 2 * s ∧ 0 = 0 ∧ 1 * 2 + 1 = r * ms + s := hc
        have := hsq ms a3
        subst this
        have : r = 1 := by omega
        subst this
        omega
    subst hk2
    obtain ⟨g, g1, g2⟩ := h1 0 (by decide)
    have hg : g = 2 := by
      have : some 2 = some g := g1
      cases this; rfl
    subst hg
    have h3 : (3 : Int) = co 0 := by
      have : some (3 : Int) = some (co 0) := g2
      exact Option.some.inj this
    show ∑ i ∈ Finset.range 1, co i * 1 = 3
    rw [Finset.sum_range_one, ← h3]
    rfl
  refine ⟨by decide, key, ?_⟩
  rintro ⟨w, h1, h2⟩
  obtain ⟨m, hm, hv⟩ := h1 0 (by decide) 3 (by decide)
  have hm3 : m = 3 := hm
  subst hm3
  have hw := key _ hv
  have : dofOf mat0 0 0 w 3 = 2 * w 0 3 := by
    show ∑ m ∈ Finset.range 4, ∑ p ∈ Finset.range 1, (if 3 = m * 1 + p then (1 : Int) else 0) * (2 * w p m) = _
    simp
  rw [show (3 / mat0.bs) = 3 from rfl, this, hw] at h2
  omega

end Verif.Props
