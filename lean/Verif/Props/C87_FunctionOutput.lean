import Verif.Lemmas.FunctionOutput
/-!
# C87: functions in files for visualisation stand at their own points
-/
namespace Verif.Props
open FunOut

variable {R T α : Type}

/-- What VTK files need of a point-wise function beside the space `V0` that gives the points: as many dofs; the same dofmap if the mesh is not three-dimensional; and
values that need no padding if it is. -/
structure VtkFits (gdim : Nat) (V0 V : Space) : Prop where
  nodes : V0.owned + V0.ghosts.length = V.owned + V.ghosts.length
  width : V0.elem.dim / V0.elem.bs = V.elem.dim / V.elem.bs
  same : gdim ≠ 3 → V.dofs = V0.dofs
  follows : gdim = 3 → Follows V0 V
  full : gdim = 3 → 3 ^ V.elem.shape.length ≤ V.elem.shape.prod

theorem numComponents_full {shape : List Nat} (h : 3 ^ shape.length ≤ shape.prod) : numComponents shape = shape.prod := by
  rw [numComponents, if_neg (by omega)]

theorem cellwise_iff (e : Element) : e.cellwise = true ↔ e.dim / e.bs = 1 := by simp [Element.cellwise]

theorem dof_congr {V V0 : Space} (h : V.dofs = V0.dofs) (c i : Nat) : V.dof c i = V0.dof c i := by rw [Space.dof, Space.dof, h]

theorem cellField_ok [Zero R] (u : Fn R) (n : Nat) (V0 : Space) (h : FnOk u n) (hf : FlatShape u.space.elem.shape) (hc : Constant u.space) (d : List R)
    (hd : d.length = n * numComponents u.space.elem.shape)
    (hv : ∀ c q, c < n → u.space.dof c 0 = some q → ∀ k < numComponents u.space.elem.shape, d[numComponents u.space.elem.shape * c + k]? = some (padded u q k)) :
    FieldOf ⟨true, numComponents u.space.elem.shape, d⟩ V0 u := by
  refine ⟨fun _ => ⟨rfl, by rw [hd, h.1.cells, Nat.mul_comm], ?_⟩, fun hn => absurd hc hn⟩
  intro c q hq
  exact at_padded u q _ c h.1.shape hf rfl (hv c q (dof_lt h.1 hq).1 hq)

theorem pointField_ok [Zero R] (u : Fn R) (n : Nat) (V0 : Space) (h : FnOk u n) (hf : FlatShape u.space.elem.shape) (hc : ¬ Constant u.space) (d : List R)
    (hd : d.length = (V0.owned + V0.ghosts.length) * numComponents u.space.elem.shape)
    (hv : ∀ c i p q, V0.dof c i = some p → u.space.dof c i = some q →
      ∀ k < numComponents u.space.elem.shape, d[numComponents u.space.elem.shape * p + k]? = some (padded u q k)) :
    FieldOf ⟨false, numComponents u.space.elem.shape, d⟩ V0 u := by
  refine ⟨fun hn => absurd hn hc, fun _ => ⟨rfl, by rw [hd, Nat.mul_comm], ?_⟩⟩
  intro c i p q hp hq
  exact at_padded u q _ p h.1.shape hf rfl (hv c i p q hp hq)

theorem vtkField_ok [Zero R] (gdim n : Nat) (V0 : Space) (u : Fn R) (h0 : SpaceOk V0 n) (h : FnOk u n) (hf : FlatShape u.space.elem.shape)
    (hid : u.space.id = V0.id → u.space = V0) (hfit : ¬ Constant u.space → VtkFits gdim V0 u.space) :
    ∃ f, vtkField gdim n V0 u = some f ∧ FieldOf f V0 u := by
  by_cases hc : Constant u.space
  · obtain ⟨d, h1, h2, h3⟩ := cellData_ok u n n h (le_refl _) hc
    refine ⟨_, ?_, cellField_ok u n V0 h hf hc d h2 h3⟩
    simp only [vtkField, if_pos ((cellwise_iff _).mpr hc), h1, Option.map_some]
  · have hfit := hfit hc
    have hcw : ¬ u.space.elem.cellwise = true := fun hh => hc ((cellwise_iff _).mp hh)
    obtain ⟨d, h1, h2, h3⟩ := padData_ok u n h
    have hpad : gdim ≠ 3 → FieldOf ⟨false, numComponents u.space.elem.shape, d⟩ V0 u := by
      intro h3d
      refine pointField_ok u n V0 h hf hc d (by rw [h2, hfit.nodes]) ?_
      intro c i p q hp hq
      rw [dof_congr (hfit.same h3d), hp] at hq
      cases hq
      exact h3 p (by rw [← hfit.nodes]; exact (dof_lt h0 hp).2.2)
    have hraw : ∀ d : List R, gdim = 3 → d.length = u.space.bs * (V0.owned + V0.ghosts.length) →
        (∀ c i p q, V0.dof c i = some p → u.space.dof c i = some q → ∀ k < u.space.bs, d[u.space.bs * p + k]? = some (nodal u q k)) →
        FieldOf ⟨false, numComponents u.space.elem.shape, d⟩ V0 u := by
      intro d h3d hl hv
      have hnc := numComponents_full (hfit.full h3d)
      rw [h.1.shape] at hnc
      refine pointField_ok u n V0 h hf hc d (by rw [hl, hnc, Nat.mul_comm]) ?_
      intro c i p q hp hq k hk
      rw [hnc] at hk ⊢
      rw [hv c i p q hp hq k hk, padded, if_pos hk]
    simp only [vtkField, if_neg hcw, pointData]
    by_cases he : u.space.id = V0.id
    · have hV := hid he
      rw [if_pos he]
      by_cases h3d : gdim = 3
      · rw [if_pos h3d]
        refine ⟨_, rfl, hraw u.x h3d (by rw [h.2, hV]) ?_⟩
        intro c i p q hp hq k hk
        rw [hV, hp] at hq
        cases hq
        exact read_some h (by rw [hV]; exact (dof_lt h0 hp).2.2) hk
      · rw [if_neg h3d, h1]
        exact ⟨_, rfl, hpad h3d⟩
    · rw [if_neg he]
      have hfol : Follows V0 u.space := by
        by_cases h3d : gdim = 3
        · exact hfit.follows h3d
        · intro c i c' i' p hp hp'
          rw [dof_congr (hfit.same h3d), dof_congr (hfit.same h3d), hp, hp']
      obtain ⟨v, k1, k2, k3⟩ := remap_ok V0 u n h0 h hfit.width hfit.nodes hfol
      rw [k1, Option.bind_some]
      by_cases h3d : gdim = 3
      · rw [if_pos h3d]
        exact ⟨_, rfl, hraw v h3d k2 k3⟩
      · rw [if_neg h3d, h1]
        exact ⟨_, rfl, hpad h3d⟩

theorem mapM_fields {α β : Type} (l : List α) (f : α → Option β) (P : α → β → Prop) (h : ∀ a ∈ l, ∃ b, f a = some b ∧ P a b) :
    ∃ bs, l.mapM f = some bs ∧ bs.length = l.length ∧ ∀ (j : Nat) (a : α), l[j]? = some a → ∃ b, bs[j]? = some b ∧ P a b := by
  induction l with
  | nil => exact ⟨[], rfl, rfl, fun j a h => by simp at h⟩
  | cons a l ih =>
    obtain ⟨b, h1, h2⟩ := h a (by simp)
    obtain ⟨bs, k1, k2, k3⟩ := ih fun a ha => h a (List.mem_cons_of_mem _ ha)
    refine ⟨b :: bs, by rw [List.mapM_cons, h1, k1]; rfl, by simp [k2], ?_⟩
    intro j a' ha'
    cases j with
    | zero => cases ha'; exact ⟨b, rfl, h2⟩
    | succ j => exact k3 j a' (by simpa using ha')

theorem mapM_checks {α ε : Type} (l : List α) (f : α → Except ε Unit) (h : ∀ a ∈ l, f a = .ok ()) : ∃ bs, l.mapM f = .ok bs := by
  induction l with
  | nil => exact ⟨[], rfl⟩
  | cons a l ih =>
    obtain ⟨bs, hb⟩ := ih fun a ha => h a (List.mem_cons_of_mem _ ha)
    exact ⟨() :: bs, by rw [List.mapM_cons, h a (by simp), hb]; rfl⟩

theorem mapM_checks_inv {α ε : Type} (l : List α) (f : α → Except ε Unit) (bs : List Unit) (h : l.mapM f = .ok bs) : ∀ a ∈ l, f a = .ok () := by
  induction l generalizing bs with
  | nil => intro a ha; simp at ha
  | cons a l ih =>
    rw [List.mapM_cons] at h
    cases h1 : f a with
    | error e => rw [h1] at h; cases h
    | ok b =>
      rw [h1] at h
      cases h2 : l.mapM f with
      | error e => rw [h2] at h; cases h
      | ok bs' =>
        intro a' ha'
        rcases List.mem_cons.mp ha' with rfl | ha'
        · exact h1
        · exact ih bs' h2 a' ha'

theorem chooseSpace_points (pre post : List (Fn R)) (u0 : Fn R) (hpre : ∀ u ∈ pre, Constant u.space) (h0 : ¬ Constant u0.space) :
    chooseSpace (pre ++ u0 :: post) = some u0.space := by
  have hf : (pre ++ u0 :: post).find? (fun u => !u.space.elem.cellwise) = some u0 := by
    rw [List.find?_append, List.find?_eq_none.mpr (by
      intro u hu
      simp [(cellwise_iff _).mpr (hpre u hu)]), Option.none_or, List.find?_cons_of_pos]
    cases hc : u0.space.elem.cellwise with
    | false => rfl
    | true => exact absurd ((cellwise_iff _).mp hc) h0
  rw [chooseSpace, hf]

theorem chooseSpace_constants (us : List (Fn R)) (hus : ∀ u ∈ us, Constant u.space) : chooseSpace us = us.head?.map Fn.space := by
  have hf : us.find? (fun u => !u.space.elem.cellwise) = none := List.find?_eq_none.mpr (by
    intro u hu
    simp [(cellwise_iff _).mpr (hus u hu)])
  rw [chooseSpace, hf]

/-- **VTK files.** Let some of the functions be point-wise, `u0` the first of them.  Each process writes a grid whose points are the dofs of `u0`, each with its coordinates, its
global index and a mark if it is a ghost, cells in the order of VTK; and of each function the field that has, at each point of each cell, the value of the
function at its own dof of that cell in the form that viewers expect, and for constants, at each cell, the value on the cell.  (Partial: for values
other than vectors and matrices of three columns, for functions of a different dofmap on meshes that are not three-dimensional, and for values of less
than three components on those that are, this does not hold: see the counterexamples.) -/
theorem C87_vtk_partial [Zero R] [Zero T] (m : Mesh T) (pts : Nat → Nat → Nat → T) (perm permX : List Nat) (pre post : List (Fn R)) (u0 : Fn R)
    (hpre : ∀ u ∈ pre, Constant u.space) (h0 : ¬ Constant u0.space) (hg : m.gdim ≤ 3)
    (hu : ∀ u ∈ pre ++ u0 :: post, FnOk u m.nodes.length ∧ u.space.mesh = u0.space.mesh ∧ u.space.component = [] ∧ u.space.elem.ident = true ∧
      FlatShape u.space.elem.shape ∧ (u.space.id = u0.space.id → u.space = u0.space) ∧
      (¬ Constant u.space → u.space.elem.basix = u0.space.elem.basix ∧ VtkFits m.gdim u0.space u.space))
    (hb : u0.space.elem.basix ≠ none) (hp : OnePosition u0.space m.gdim pts) (ho : OrderOk perm (u0.space.elem.dim / u0.space.elem.bs)) :
    ∃ g fs, vtkWrite m pts perm permX (pre ++ u0 :: post) = .ok (some (g, fs)) ∧ GridOf g u0.space m.gdim pts perm ∧
      fs.length = (pre ++ u0 :: post).length ∧ ∀ (j : Nat) (u : Fn R), (pre ++ u0 :: post)[j]? = some u → ∃ f, fs[j]? = some f ∧ FieldOf f u0.space u := by
  have hin : u0 ∈ pre ++ u0 :: post := by simp
  have hok0 := (hu u0 hin).1
  obtain ⟨g, hgr, hgrid⟩ := meshFromSpace_ok u0.space m.nodes.length m.gdim pts perm hok0.1 hb hg hp ho
  obtain ⟨fs, hfs, hfl, hfv⟩ := mapM_fields (pre ++ u0 :: post) (vtkField m.gdim m.nodes.length u0.space) (fun u f => FieldOf f u0.space u) (by
    intro u hm
    obtain ⟨a1, a2, a3, a4, a5, a6, a7⟩ := hu u hm
    exact vtkField_ok m.gdim _ u0.space u hok0.1 a1 a5 a6 fun hc => (a7 hc).2)
  obtain ⟨cs, hcs⟩ := mapM_checks (pre ++ u0 :: post) (fun u => vtkCheck u0.space u.space) (by
    intro u hm
    obtain ⟨a1, a2, a3, a4, a5, a6, a7⟩ := hu u hm
    rw [vtkCheck, if_neg (fun h => h a2), if_neg (fun h => h a3), if_neg (by rw [a4]; simp)]
    split
    · rfl
    · rename_i hc
      obtain ⟨b, hb'⟩ := Option.ne_none_iff_exists'.mp hb
      have hbu := (a7 fun h => hc ((cellwise_iff _).mpr h)).1
      rw [hb'] at hbu
      simp [sameElement, hbu, hb'])
  refine ⟨g, fs, ?_, hgrid, hfl, hfv⟩
  have hcw : ¬ u0.space.elem.cellwise = true := fun h => h0 ((cellwise_iff _).mp h)
  simp only [vtkWrite, chooseSpace_points pre post u0 hpre h0, hcs, if_neg hcw, hgr, hfs]

/-- **VTK files of constants.** If all functions are constant on cells, the grid is the mesh itself: its points, their input indices, ghosts marked, its cells in the order of
VTK; and the field of each function has its value at each cell. -/
theorem C87_vtk_constants_partial [Zero R] [Zero T] (m : Mesh T) (pts : Nat → Nat → Nat → T) (perm permX : List Nat) (u0 : Fn R) (us : List (Fn R))
    (hu : ∀ u ∈ u0 :: us, FnOk u m.nodes.length ∧ u.space.mesh = u0.space.mesh ∧ u.space.component = [] ∧ u.space.elem.ident = true ∧
      FlatShape u.space.elem.shape ∧ Constant u.space)
    (hm : ∀ row ∈ m.nodes, row.length = m.cmapDim) (hx : m.xOwned ≤ m.x.length / 3) (ho : OrderOk permX m.cmapDim) :
    ∃ g fs, vtkWrite m pts perm permX (u0 :: us) = .ok (some (g, fs)) ∧ g.x = m.x ∧ g.ids = m.xIds ∧ g.width = m.cmapDim ∧ g.ghost.length = m.x.length / 3 ∧
      (∀ p < m.x.length / 3, g.ghost[p]? = some (if p < m.xOwned then 0 else 1)) ∧ g.cells.length = m.nodes.length * m.cmapDim ∧
      (∀ (c i k : Nat), permX[i]? = some k → g.cells[c * m.cmapDim + i]? = (m.nodes[c]?).bind fun r => r[k]?) ∧
      fs.length = (u0 :: us).length ∧ ∀ (j : Nat) (u : Fn R), (u0 :: us)[j]? = some u → ∃ f, fs[j]? = some f ∧ FieldOf f u0.space u := by
  have hin : u0 ∈ u0 :: us := by simp
  obtain ⟨l, hl, hll, hlv⟩ := permuted_ok permX m.nodes _ ho hm
  obtain ⟨fs, hfs, hfl, hfv⟩ := mapM_fields (u0 :: us) (vtkField m.gdim m.nodes.length u0.space) (fun u f => FieldOf f u0.space u) (by
    intro u hm
    obtain ⟨a1, a2, a3, a4, a5, a6⟩ := hu u hm
    obtain ⟨d, h1, h2, h3⟩ := cellData_ok u _ _ a1 (le_refl _) a6
    refine ⟨_, ?_, cellField_ok u _ u0.space a1 a5 a6 d h2 h3⟩
    simp only [vtkField, if_pos ((cellwise_iff _).mpr a6), h1, Option.map_some])
  obtain ⟨cs, hcs⟩ := mapM_checks (u0 :: us) (fun u => vtkCheck u0.space u.space) (by
    intro u hm
    obtain ⟨a1, a2, a3, a4, a5, a6⟩ := hu u hm
    rw [vtkCheck, if_neg (fun h => h a2), if_neg (fun h => h a3), if_neg (by rw [a4]; simp), if_pos ((cellwise_iff _).mpr a6)])
  refine ⟨⟨m.x, m.xIds, List.replicate m.xOwned 0 ++ List.replicate (m.x.length / 3 - m.xOwned) 1, l, m.cmapDim⟩, fs, ?_, rfl, rfl, rfl, ?_, ?_, hll, hlv, hfl, hfv⟩
  · simp only [vtkWrite, chooseSpace_constants (u0 :: us) (fun u hm => (hu u hm).2.2.2.2.2), List.head?_cons, Option.map_some, hcs,
        if_pos ((cellwise_iff _).mpr (hu u0 hin).2.2.2.2.2), meshGrid, hl, hfs]
  · simp only [List.length_append, List.length_replicate]
    omega
  · intro p hp
    simp only []
    split
    · rename_i h
      rw [List.getElem?_append_left (by simpa using h), List.getElem?_replicate, if_pos h]
    · rename_i h
      rw [List.getElem?_append_right (by simpa using h), List.length_replicate, List.getElem?_replicate, if_pos (by omega)]

/-- **What VTK files accept.** Whatever is written are functions on one mesh, none of them a sub-function, all of elements of point evaluations; and all point-wise ones have the Basix
element of the first of them. -/
theorem C87_vtk_accepts [Zero R] [Zero T] (m : Mesh T) (pts : Nat → Nat → Nat → T) (perm permX : List Nat) (us : List (Fn R))
    (out : Option (Grid T × List (DataField R))) (h : vtkWrite m pts perm permX us = .ok out) :
    (∀ u ∈ us, ∀ v ∈ us, u.space.mesh = v.space.mesh) ∧
    (∀ u ∈ us, u.space.component = [] ∧ u.space.elem.ident = true) ∧
    ∀ u ∈ us, ∀ v ∈ us, ¬ Constant u.space → ¬ Constant v.space → u.space.elem.basix ≠ none ∧ u.space.elem.basix = v.space.elem.basix := by
  simp only [vtkWrite] at h
  cases hV : chooseSpace us with
  | none =>
    have hnil : us = [] := by
      cases us with
      | nil => rfl
      | cons u us =>
        rw [chooseSpace] at hV
        split at hV
        · cases hV
        · simp at hV
    subst hnil
    simp
  | some V0 =>
    rw [hV] at h
    simp only [] at h
    cases hc : us.mapM fun u => vtkCheck V0 u.space with
    | error e => rw [hc] at h; cases h
    | ok cs =>
      have hall := mapM_checks_inv _ _ cs hc
      have key : ∀ u ∈ us, u.space.mesh = V0.mesh ∧ u.space.component = [] ∧ u.space.elem.ident = true ∧
          (¬ Constant u.space → ∃ b, u.space.elem.basix = some b ∧ V0.elem.basix = some b) := by
        intro u hu
        have := hall u hu
        simp only [vtkCheck] at this
        by_cases c1 : u.space.mesh = V0.mesh
        · rw [if_neg (fun h => h c1)] at this
          by_cases c2 : u.space.component = []
          · rw [if_neg (fun h => h c2)] at this
            cases c3 : u.space.elem.ident with
            | false => rw [if_pos c3] at this; cases this
            | true =>
              rw [if_neg (by rw [c3]; simp)] at this
              refine ⟨c1, c2, rfl, ?_⟩
              intro hcc
              rw [if_neg (fun h => hcc ((cellwise_iff _).mp h))] at this
              cases e1 : u.space.elem.basix with
              | none => simp [sameElement, e1] at this
              | some a =>
                cases e2 : V0.elem.basix with
                | none => simp [sameElement, e1, e2] at this
                | some b =>
                  by_cases hab : a = b
                  · exact ⟨a, rfl, by rw [hab]⟩
                  · simp [sameElement, e1, e2, hab] at this
          · rw [if_pos c2] at this; cases this
        · rw [if_pos c1] at this; cases this
      refine ⟨?_, ?_, ?_⟩
      · intro u hu v hv
        rw [(key u hu).1, (key v hv).1]
      · exact fun u hu => ⟨(key u hu).2.1, (key u hu).2.2.1⟩
      · intro u hu v hv cu cv
        obtain ⟨a, a1, a2⟩ := (key u hu).2.2.2 cu
        obtain ⟨b, b1, b2⟩ := (key v hv).2.2.2 cv
        rw [a2] at b2
        exact ⟨by rw [a1]; simp, by rw [a1, b1, b2]⟩

/-! ## XDMF -/

/-- A function and the geometry of its mesh on a process fit: node `i` of a cell is at dof `i`. -/
structure NodesFit (m : Mesh T) (u : Fn R) : Prop where
  fn : FnOk u m.nodes.length
  width : ∀ row ∈ m.nodes, row.length = u.space.elem.dim / u.space.elem.bs
  dim : m.cmapDim = u.space.elem.dim / u.space.elem.bs
  follows : ∀ (c i c' i' : Nat) (g : Nat), ((m.nodes[c]?).bind fun r => r[i]?) = some g → ((m.nodes[c']?).bind fun r => r[i']?) = some g →
    u.space.dof c i = u.space.dof c' i'

theorem nodeData_ok [Zero R] (m : Mesh T) (u : Fn R) (h : NodesFit m u) :
    ∃ d, nodeData m u.space (numComponents u.space.elem.shape) u.x = some d ∧ d.length = m.xOwned * numComponents u.space.elem.shape ∧
      ∀ c i g q, ((m.nodes[c]?).bind fun r => r[i]?) = some g → g < m.xOwned → u.space.dof c i = some q →
        ∀ k < numComponents u.space.elem.shape, d[numComponents u.space.elem.shape * g + k]? = some (padded u q k) := by
  obtain ⟨node, hnode⟩ : ∃ node : Nat × Nat × Nat → Option Nat, node = fun t => (m.nodes[t.1]?).bind fun r => r[t.2.1]? := ⟨_, rfl⟩
  have hm : ∀ t ∈ cellPairs u.space.dofs m.nodes.length, u.space.dof t.1 t.2.1 = some t.2.2 := fun t ht => ((mem_cellPairs _ _ _).mp ht).2
  have hn : ∀ t ∈ cellPairs u.space.dofs m.nodes.length, ∃ g, node t = some g := by
    intro t ht
    obtain ⟨h1, h2, _⟩ := dof_lt h.fn.1 (hm t ht)
    have h3 : t.2.1 < (m.nodes[t.1]).length := by rw [h.width _ (List.getElem_mem h1)]; exact h2
    exact ⟨_, by rw [hnode]; simp only []; rw [List.getElem?_eq_getElem h1, Option.bind_some, List.getElem?_eq_getElem h3]⟩
  obtain ⟨L, hL⟩ : ∃ L, L = (cellPairs u.space.dofs m.nodes.length).flatMap fun t => if (node t).getD 0 < m.xOwned then [t] else [] := ⟨_, rfl⟩
  have hmem : ∀ t, t ∈ L ↔ t ∈ cellPairs u.space.dofs m.nodes.length ∧ (node t).getD 0 < m.xOwned := by
    intro t
    rw [hL, List.mem_flatMap]
    constructor
    · rintro ⟨t', h1, h2⟩
      split at h2
      · cases List.mem_singleton.mp h2
        exact ⟨h1, by assumption⟩
      · simp at h2
    · rintro ⟨h1, h2⟩
      exact ⟨t, h1, by rw [if_pos h2]; simp⟩
  obtain ⟨d, k1, k2, k3⟩ := rows_loop (R := R) L (fun t => (node t).getD 0) (fun t k => u.x[u.space.bs * t.2.2 + k]?) u.space.bs
    (numComponents u.space.elem.shape) m.xOwned (bs_le h.fn.1) (fun t ht => ((hmem t).mp ht).2)
    (fun t ht k hk => ⟨_, read_some h.fn (dof_lt h.fn.1 (hm t ((hmem t).mp ht).1)).2.2 hk⟩)
  refine ⟨d, ?_, k2, ?_⟩
  · rw [← k1, hL, Interp.foldlM_flatMap', nodeData]
    rw [← cellPairs_loop u.space.dofs m.nodes.length]
    refine Interp.foldlM_congr' _ _ _ ?_ _
    intro c hc s
    have hc := List.mem_range.mp hc
    refine Interp.foldlM_congr' _ _ _ ?_ _
    intro p hp s
    have hpm : (c, p.2, p.1) ∈ cellPairs u.space.dofs m.nodes.length :=
      List.mem_flatMap.mpr ⟨c, List.mem_range.mpr hc, List.mem_map.mpr ⟨p, hp, rfl⟩⟩
    obtain ⟨g, hg⟩ := hn _ hpm
    have hg' : (m.nodes.getD c [])[p.2]? = some g := by
      rw [← hg, hnode]
      simp only []
      rw [List.getD_eq_getElem?_getD, List.getElem?_eq_getElem hc, Option.getD_some, Option.bind_some]
    rw [hg', Option.bind_some, hg, Option.getD_some]
    split
    · rw [List.foldlM_cons]
      simp only [hg, Option.getD_some, List.foldlM_nil]
      exact (bind_pure _).symm
    · rfl
  · intro c i g q hg hlt hq k hk
    rw [← padded_src h.fn (dof_lt h.fn.1 hq).2.2]
    have hnd : node (c, i, q) = some g := by rw [hnode]; exact hg
    have hin : (c, i, q) ∈ L := (hmem _).mpr ⟨(mem_cellPairs _ _ _).mpr ⟨(dof_lt h.fn.1 hq).1, hq⟩, by rw [hnd]; exact hlt⟩
    have := k3 _ hin (by
      intro t ht he j _
      obtain ⟨g', hg'⟩ := hn t ((hmem t).mp ht).1
      simp only [hg', hnd, Option.getD_some] at he
      subst he
      have hd := h.follows t.1 t.2.1 c i g' (by rw [← hg', hnode]) hg
      rw [hm t ((hmem t).mp ht).1, hq] at hd
      rw [Option.some.inj hd]) k hk
    rw [hnd] at this
    exact this

theorem rows_of (nc n : Nat) (d : List R) (hd : d.length = n * nc) (i : Nat) (hi : i < n) (row : List R) (hl : row.length = nc)
    (hr : ∀ k < nc, d[nc * i + k]? = row[k]?) : (rows nc n d)[i]? = some row := by
  rw [rows, List.getElem?_map, List.getElem?_range hi, Option.map_some]
  congr 1
  apply List.ext_getElem?
  intro k
  rw [List.getElem?_take]
  split
  · rename_i hk
    rw [List.getElem?_drop, Nat.mul_comm]
    exact hr k hk
  · rename_i hk
    exact (List.getElem?_eq_none (by omega)).symm

theorem flatten_part {β : Type} (L : List (List β)) (size : Nat → Nat) (hs : ∀ (r : Nat) (l : List β), L[r]? = some l → l.length = size r) (r i : Nat) (l : List β)
    (hr : L[r]? = some l) (hi : i < size r) : L.flatten[Offsets.excl size r + i]? = l[i]? := by
  induction L generalizing size r with
  | nil => simp at hr
  | cons a L ih =>
    have ha := hs 0 a rfl
    cases r with
    | zero =>
      cases hr
      rw [Offsets.excl_zero, Nat.zero_add, List.flatten_cons, List.getElem?_append_left (by omega)]
    | succ r =>
      have he : Offsets.excl size (r + 1) = size 0 + Offsets.excl (fun k => size (k + 1)) r := by
        simp only [Offsets.excl, List.range_succ_eq_map, List.map_cons, List.map_map, List.sum_cons]
        rfl
      rw [he, List.flatten_cons, List.getElem?_append_right (by omega),
        show size 0 + Offsets.excl (fun k => size (k + 1)) r + i - a.length = Offsets.excl (fun k => size (k + 1)) r + i by omega]
      exact ih (fun k => size (k + 1)) (fun r l h => hs (r + 1) l (by simpa using h)) r (by simpa using hr) hi

theorem flatten_sizes {β : Type} (L : List (List β)) (sizes : List Nat) (h : L.map List.length = sizes) (r i : Nat) (l : List β)
    (hr : L[r]? = some l) (hi : i < l.length) : L.flatten[Offsets.excl (fun r => sizes.getD r 0) r + i]? = l[i]? := by
  have hs : ∀ (r : Nat) (l : List β), L[r]? = some l → l.length = sizes.getD r 0 := by
    intro r l hl
    rw [← h, List.getD_eq_getElem?_getD, List.getElem?_map, hl]
    rfl
  exact flatten_part L _ hs r i l hr (by rw [← hs r l hr]; exact hi)

/-- Data of processes in a file. -/
theorem file_rows (ps : List α) (size : α → Nat) (f : α → Except FunOut.Err (DataField R)) (nc : Nat) (hnc : 0 < nc) (cell : Bool) (P : α → Nat → List R → Prop)
    (h : ∀ p ∈ ps, ∃ d, f p = .ok ⟨cell, nc, d⟩ ∧ d.length = size p * nc ∧ ∀ g row, P p g row → g < size p ∧ At (⟨cell, nc, d⟩ : DataField R) g row) :
    ∃ fs item, ps.mapM f = .ok fs ∧ (∀ f ∈ fs, f.cell = cell ∧ f.nc = nc) ∧ xdmfWrite fs nc = .ok item ∧ item.rows.length = (ps.map size).sum ∧
      item.shape = [(ps.map size).sum, nc] ∧
      ∀ (r : Nat) (p : α), ps[r]? = some p → ∀ g row, P p g row → item.rows[Offsets.excl (fun r => (ps.map size).getD r 0) r + g]? = some row := by
  have hall : ∃ fs, ps.mapM f = .ok fs ∧ fs.length = ps.length ∧ ∀ (r : Nat) (p : α), ps[r]? = some p →
      ∃ d, fs[r]? = some ⟨cell, nc, d⟩ ∧ d.length = size p * nc ∧ ∀ g row, P p g row → g < size p ∧ At (⟨cell, nc, d⟩ : DataField R) g row := by
    induction ps with
    | nil => exact ⟨[], rfl, rfl, fun r p h => by simp at h⟩
    | cons p ps ih =>
      obtain ⟨d, h1, h2, h3⟩ := h p (by simp)
      obtain ⟨fs, k1, k2, k3⟩ := ih fun p hp => h p (List.mem_cons_of_mem _ hp)
      refine ⟨⟨cell, nc, d⟩ :: fs, by rw [List.mapM_cons, h1, k1]; rfl, by simp [k2], ?_⟩
      intro r p' hp'
      cases r with
      | zero => cases hp'; exact ⟨d, rfl, h2, h3⟩
      | succ r => exact k3 r p' (by simpa using hp')
  obtain ⟨fs, k1, k2, k3⟩ := hall
  obtain ⟨L, hL⟩ : ∃ L, L = fs.map fun f : DataField R => rows nc (f.values.length / nc) f.values := ⟨_, rfl⟩
  have hrow : ∀ (r : Nat) (p : α), ps[r]? = some p → ∃ d, d.length = size p * nc ∧ L[r]? = some (rows nc (size p) d) ∧
      ∀ g row, P p g row → g < size p ∧ At (⟨cell, nc, d⟩ : DataField R) g row := by
    intro r p hp
    obtain ⟨d, h1, h2, h3⟩ := k3 r p hp
    refine ⟨d, h2, ?_, h3⟩
    rw [hL, List.getElem?_map, h1, Option.map_some]
    simp only [h2, Nat.mul_div_cancel _ hnc]
  have hlens : L.map List.length = ps.map size := by
    apply List.ext_getElem?
    intro r
    rw [List.getElem?_map, List.getElem?_map]
    cases hp : ps[r]? with
    | none =>
      have : L[r]? = none := by
        rw [List.getElem?_eq_none_iff] at hp ⊢
        rw [hL, List.length_map, k2]
        exact hp
      rw [this]
      rfl
    | some p =>
      obtain ⟨d, _, h3, _⟩ := hrow r p hp
      rw [h3, Option.map_some, Option.map_some]
      simp [rows]
  have hsum : L.flatten.length = (ps.map size).sum := by rw [List.length_flatten, hlens]
  refine ⟨fs, ⟨[L.flatten.length, nc], [L.flatten.length, nc], L.flatten⟩, k1, ?_, ?_, hsum, by simp only [hsum], ?_⟩
  · intro f hff
    obtain ⟨r, hr⟩ := List.mem_iff_getElem?.mp hff
    have hlt := (List.getElem?_eq_some_iff.mp hr).1
    obtain ⟨d, h1, _⟩ := k3 r ps[r] (List.getElem?_eq_getElem (by omega))
    rw [hr] at h1
    cases h1
    exact ⟨rfl, rfl⟩
  · rw [xdmfWrite, ← hL, Xdmf.addDataItem_ok]
  · intro r p hp g row hg
    obtain ⟨d, h2, h3, h4⟩ := hrow r p hp
    obtain ⟨hlt, hat⟩ := h4 g row hg
    simp only []
    rw [flatten_sizes L _ hlens r g _ h3 (by simpa [rows] using hlt)]
    refine rows_of _ _ d h2 g hlt _ hat.1.symm ?_
    intro k hk
    exact hat.2 k (by rw [← hat.1]; exact hk)

theorem numComponents_pos (shape : List Nat) : 0 < numComponents shape := by
  rw [numComponents]
  have : 0 < 3 ^ shape.length := Nat.pos_of_ne_zero (by simp)
  split <;> omega

/-- **XDMF files, functions at nodes.** On all processes, let the function have the degree and layout of the geometry.  The data set has one row for each node of the mesh, in the
order of the points in the file (C74: the nodes of the processes one after another), and the row of a node has the value of the function at its dof.
(Partial: for matrices with less than three columns this does not hold, see `C87_refuted_xdmf_tensor`.) -/
theorem C87_xdmf_nodes_partial [Zero R] (ps : List (Mesh T × Fn R)) (shape : List Nat) (hf : FlatShape shape)
    (h : ∀ p ∈ ps, NodesFit p.1 p.2 ∧ p.2.space.elem.shape = shape ∧ p.2.space.elem.ident = true ∧ ¬ Constant p.2.space ∧ p.2.space.layout = p.1.cmapLayout ∧
      (2 < p.1.degree → p.1.variantOk = true)) :
    ∃ fs item, (ps.mapM fun p => xdmfField p.1 p.2) = .ok fs ∧ (∀ f ∈ fs, f.cell = false ∧ f.nc = numComponents shape) ∧
      xdmfWrite fs (numComponents shape) = .ok item ∧ item.rows.length = (ps.map fun p => p.1.xOwned).sum ∧
      item.shape = [(ps.map fun p => p.1.xOwned).sum, numComponents shape] ∧
      ∀ (r : Nat) (m : Mesh T) (u : Fn R), ps[r]? = some (m, u) → ∀ (c i g q : Nat), ((m.nodes[c]?).bind fun r => r[i]?) = some g → g < m.xOwned →
        u.space.dof c i = some q →
        item.rows[Offsets.excl (fun r => ((ps.map fun p => p.1.xOwned).getD r 0)) r + g]? = some (shown shape (nodal u q)) := by
  obtain ⟨fs, item, h1, h2, h3, h4, h5, h6⟩ := file_rows ps (fun p => p.1.xOwned) (fun p => xdmfField p.1 p.2) (numComponents shape) (numComponents_pos shape) false
    (fun p g row => ∃ (c i q : Nat), ((p.1.nodes[c]?).bind fun r => r[i]?) = some g ∧ g < p.1.xOwned ∧ p.2.space.dof c i = some q ∧ row = shown shape (nodal p.2 q)) (by
    intro p hp
    obtain ⟨a1, a2, a3, a4, a5, a6⟩ := h p hp
    obtain ⟨d, h1, h2, h3⟩ := nodeData_ok p.1 p.2 a1
    rw [a2] at h1 h2 h3
    refine ⟨d, ?_, h2, ?_⟩
    · simp only [xdmfField]
      rw [if_neg (by rw [a3]; simp), if_neg (show ¬ p.2.space.elem.dim / p.2.space.elem.bs = 1 from a4), if_neg (fun h => h a1.dim), if_neg (fun h => h a5),
        if_neg (by rintro ⟨b1, b2⟩; rw [a6 b1] at b2; cases b2), a2, h1]
    · rintro g row ⟨c, i, q, hg, hlt, hq, rfl⟩
      have := at_padded p.2 q ⟨false, numComponents shape, d⟩ g a1.fn.1.shape (by rw [a2]; exact hf) (by rw [a2]) (by rw [a2]; exact h3 c i g q hg hlt hq)
      rw [a2] at this
      exact ⟨hlt, this⟩)
  exact ⟨fs, item, h1, h2, h3, h4, h5, fun r m u hp c i g q hg hlt hq => h6 r (m, u) hp g _ ⟨c, i, q, hg, hlt, hq, rfl⟩⟩

/-- **XDMF files, constants.** The data set has one row for each cell of the mesh, the owned cells of the processes one after another as in the file (C74), and the row of a cell has the
value on the cell. -/
theorem C87_xdmf_cells_partial [Zero R] (ps : List (Mesh T × Fn R)) (shape : List Nat) (hf : FlatShape shape)
    (h : ∀ p ∈ ps, FnOk p.2 p.1.nodes.length ∧ p.1.ownedCells ≤ p.1.nodes.length ∧ p.2.space.elem.shape = shape ∧ p.2.space.elem.ident = true ∧ Constant p.2.space) :
    ∃ fs item, (ps.mapM fun p => xdmfField p.1 p.2) = .ok fs ∧ (∀ f ∈ fs, f.cell = true ∧ f.nc = numComponents shape) ∧
      xdmfWrite fs (numComponents shape) = .ok item ∧ item.rows.length = (ps.map fun p => p.1.ownedCells).sum ∧
      item.shape = [(ps.map fun p => p.1.ownedCells).sum, numComponents shape] ∧
      ∀ (r : Nat) (m : Mesh T) (u : Fn R), ps[r]? = some (m, u) → ∀ (c q : Nat), c < m.ownedCells → u.space.dof c 0 = some q →
        item.rows[Offsets.excl (fun r => ((ps.map fun p => p.1.ownedCells).getD r 0)) r + c]? = some (shown shape (nodal u q)) := by
  obtain ⟨fs, item, h1, h2, h3, h4, h5, h6⟩ := file_rows ps (fun p => p.1.ownedCells) (fun p => xdmfField p.1 p.2) (numComponents shape) (numComponents_pos shape) true
    (fun p c row => ∃ q : Nat, c < p.1.ownedCells ∧ p.2.space.dof c 0 = some q ∧ row = shown shape (nodal p.2 q)) (by
    intro p hp
    obtain ⟨a1, a2, a3, a4, a5⟩ := h p hp
    obtain ⟨d, h1, h2, h3⟩ := cellData_ok p.2 _ _ a1 a2 a5
    rw [a3] at h1 h2 h3
    refine ⟨d, ?_, h2, ?_⟩
    · simp only [xdmfField]
      rw [if_neg (by rw [a4]; simp), if_pos (show p.2.space.elem.dim / p.2.space.elem.bs = 1 from a5), a3, h1]
    · rintro c row ⟨q, hlt, hq, rfl⟩
      have := at_padded p.2 q ⟨true, numComponents shape, d⟩ c a1.1.shape (by rw [a3]; exact hf) (by rw [a3]) (by rw [a3]; exact h3 c q hlt hq)
      rw [a3] at this
      exact ⟨hlt, this⟩)
  exact ⟨fs, item, h1, h2, h3, h4, h5, fun r m u hp c q hlt hq => h6 r (m, u) hp c _ ⟨q, hlt, hq, rfl⟩⟩

/-- **What XDMF files accept**: elements of point evaluations, and if the function is not constant on cells, only with the degree and the layout of the geometry, and above
degree two the same kind of Lagrange points. -/
theorem C87_xdmf_accepts [Zero R] (m : Mesh T) (u : Fn R) (f : DataField R) (h : xdmfField m u = .ok f) :
    u.space.elem.ident = true ∧ (f.cell = true ↔ Constant u.space) ∧
    (¬ Constant u.space → m.cmapDim = u.space.elem.dim / u.space.elem.bs ∧ u.space.layout = m.cmapLayout ∧ (2 < m.degree → m.variantOk = true)) := by
  simp only [xdmfField] at h
  cases c1 : u.space.elem.ident with
  | false => rw [if_pos c1] at h; cases h
  | true =>
    rw [if_neg (by rw [c1]; simp)] at h
    refine ⟨rfl, ?_⟩
    by_cases hc : u.space.elem.dim / u.space.elem.bs = 1
    · rw [if_pos hc] at h
      split at h
      · cases h
        exact ⟨⟨fun _ => hc, fun _ => rfl⟩, fun hn => absurd hc hn⟩
      · cases h
    · rw [if_neg hc] at h
      by_cases c2 : m.cmapDim = u.space.elem.dim / u.space.elem.bs
      · rw [if_neg (fun h => h c2)] at h
        by_cases c3 : u.space.layout = m.cmapLayout
        · rw [if_neg (fun h => h c3)] at h
          by_cases c4 : 2 < m.degree ∧ m.variantOk = false
          · rw [if_pos c4] at h; cases h
          · rw [if_neg c4] at h
            split at h
            · cases h
              refine ⟨⟨fun hh => (Bool.noConfusion hh), fun hh => absurd hh hc⟩, fun _ => ⟨c2, c3, fun hd => ?_⟩⟩
              cases hv : m.variantOk with
              | true => rfl
              | false => exact absurd ⟨hd, hv⟩ c4
            · cases h
        · rw [if_pos c3] at h; cases h
      · rw [if_pos c2] at h; cases h

/-! ## VTX -/

/-- **VTX files.** If the first function is point-wise, all point-wise functions have its dofmap, and the dof of a constant on a cell is numbered as the cell, then each process writes the
points of the first function with their coordinates, and fields with the values at those points and at the cells. (Partial: without these
conditions the code accepts the functions all the same; see the counterexamples.) -/
theorem C87_vtx_partial [Zero R] [Zero T] (m : Mesh T) (pts : Nat → Nat → Nat → T) (perm permX : List Nat) (post : List (Fn R)) (u0 : Fn R)
    (h0 : ¬ Constant u0.space) (hg : m.gdim ≤ 3)
    (hu : ∀ u ∈ u0 :: post, FnOk u m.nodes.length ∧ u.space.mesh = u0.space.mesh ∧ u.space.elem.basix ≠ none ∧ FlatShape u.space.elem.shape ∧
      (¬ Constant u.space → u.space.elem.basix = u0.space.elem.basix ∧ u.space.dofs = u0.space.dofs ∧
        u.space.owned + u.space.ghosts.length = u0.space.owned + u0.space.ghosts.length) ∧
      (Constant u.space → u.space.owned + u.space.ghosts.length = m.nodes.length ∧ ∀ c < m.nodes.length, u.space.dof c 0 = some c))
    (hi : u0.space.elem.ident = true) (hp : OnePosition u0.space m.gdim pts) (ho : OrderOk perm (u0.space.elem.dim / u0.space.elem.bs)) :
    ∃ g fs, vtxWrite m pts perm permX (u0 :: post) = .ok (g, fs) ∧ GridOf g u0.space m.gdim pts perm ∧
      fs.length = (u0 :: post).length ∧ ∀ (j : Nat) (u : Fn R), (u0 :: post)[j]? = some u → ∃ f, fs[j]? = some f ∧ FieldOf f u0.space u := by
  have hin : u0 ∈ u0 :: post := by simp
  have hok0 := (hu u0 hin).1
  have hb := (hu u0 hin).2.2.1
  obtain ⟨g, hgr, hgrid⟩ := meshFromSpace_ok u0.space m.nodes.length m.gdim pts perm hok0.1 hb hg hp ho
  obtain ⟨fs, hfs, hfl, hfv⟩ := mapM_fields (u0 :: post) vtxField (fun u f => FieldOf f u0.space u) (by
    intro u hm
    obtain ⟨a1, a2, a3, a4, a5, a6⟩ := hu u hm
    obtain ⟨d, h1, h2, h3⟩ := padData_ok u _ a1
    have hfield : vtxField u = some ⟨u.space.elem.cellwise, numComponents u.space.elem.shape, d⟩ := by
      have : vtxField u = (padData u.space (numComponents u.space.elem.shape) u.x).map (DataField.mk u.space.elem.cellwise (numComponents u.space.elem.shape)) := rfl
      rw [this, h1, Option.map_some]
    refine ⟨_, hfield, ?_⟩
    by_cases hc : Constant u.space
    · rw [(cellwise_iff _).mpr hc]
      refine cellField_ok u _ u0.space a1 a4 hc d (by rw [h2, (a6 hc).1]) ?_
      intro c q hcn hq
      rw [(a6 hc).2 c hcn] at hq
      cases hq
      exact h3 c (by rw [(a6 hc).1]; exact hcn)
    · have hcw : u.space.elem.cellwise = false := by
        cases hh : u.space.elem.cellwise with
        | false => rfl
        | true => exact absurd ((cellwise_iff _).mp hh) hc
      rw [hcw]
      refine pointField_ok u _ u0.space a1 a4 hc d (by rw [h2, (a5 hc).2.2]) ?_
      intro c i p q hp' hq
      rw [dof_congr (a5 hc).2.1, hp'] at hq
      cases hq
      exact h3 p (by rw [(a5 hc).2.2]; exact (dof_lt hok0.1 hp').2.2))
  obtain ⟨cs, hcs⟩ := mapM_checks (u0 :: post) (fun u => vtxCheck u0.space u.space) (by
    intro u hm
    obtain ⟨a1, a2, a3, a4, a5, a6⟩ := hu u hm
    obtain ⟨b, hb'⟩ := Option.ne_none_iff_exists'.mp hb
    obtain ⟨a, ha'⟩ := Option.ne_none_iff_exists'.mp a3
    rw [vtxCheck, if_neg (fun h => h a2)]
    simp only [sameElement, ha', hb']
    rw [if_neg]
    rintro ⟨e1, e2⟩
    have hc : ¬ Constant u.space := fun h => by rw [(cellwise_iff _).mpr h] at e2; cases e2
    have := (a5 hc).1
    rw [ha', hb'] at this
    cases this
    simp at e1)
  refine ⟨g, fs, ?_, hgrid, hfl, hfv⟩
  have hch := chooseSpace_points [] post u0 (fun u hu => by simp at hu) h0
  rw [List.nil_append] at hch
  have hall : ¬ ((u0 :: post).all fun u => u.space.elem.cellwise) = true := by
    intro h
    exact h0 ((cellwise_iff _).mp (List.all_eq_true.mp h u0 hin))
  simp only [vtxWrite, hch, List.head?_cons]
  rw [if_neg (by
    rintro (h | h)
    · exact hb h
    · rw [hi] at h; cases h), hcs]
  simp only [if_neg hall, hgr, hfs]

/-- **What VTX files accept**: functions on one mesh, point-wise ones of one Basix element, the first of them of point evaluations. -/
theorem C87_vtx_accepts [Zero R] [Zero T] (m : Mesh T) (pts : Nat → Nat → Nat → T) (perm permX : List Nat) (us : List (Fn R))
    (out : Grid T × List (DataField R)) (h : vtxWrite m pts perm permX us = .ok out) :
    us ≠ [] ∧ (∀ u ∈ us, ∀ v ∈ us, u.space.mesh = v.space.mesh) ∧ (∀ u ∈ us, u.space.elem.basix ≠ none) ∧
    (∀ (pre post : List (Fn R)) (u0 : Fn R), us = pre ++ u0 :: post → (∀ u ∈ pre, Constant u.space) → ¬ Constant u0.space → u0.space.elem.ident = true) ∧
    ∀ u ∈ us, ∀ v ∈ us, ¬ Constant u.space → ¬ Constant v.space → u.space.elem.basix = v.space.elem.basix := by
  simp only [vtxWrite] at h
  cases hV : chooseSpace us with
  | none => rw [hV] at h; cases h
  | some V0 =>
    cases us with
    | nil => simp [hV] at h
    | cons u0 us =>
      rw [hV, List.head?_cons] at h
      simp only [] at h
      by_cases hb : V0.elem.basix = none ∨ V0.elem.ident = false
      · rw [if_pos hb] at h; cases h
      · rw [if_neg hb] at h
        cases hc : (u0 :: us).mapM fun u => vtxCheck V0 u.space with
        | error e => rw [hc] at h; cases h
        | ok cs =>
          have hall := mapM_checks_inv _ _ cs hc
          have key : ∀ u ∈ u0 :: us, u.space.mesh = V0.mesh ∧ u.space.elem.basix ≠ none ∧ (¬ Constant u.space → u.space.elem.basix = V0.elem.basix) := by
            intro u hu
            have := hall u hu
            simp only [vtxCheck] at this
            by_cases c1 : u.space.mesh = V0.mesh
            · rw [if_neg (fun h => h c1)] at this
              cases e1 : u.space.elem.basix with
              | none => simp [sameElement, e1] at this
              | some a =>
                cases e2 : V0.elem.basix with
                | none => exact absurd (Or.inl e2) hb
                | some b =>
                  refine ⟨c1, by simp, fun hcc => ?_⟩
                  have hcw : u.space.elem.cellwise = false := by
                    cases hh : u.space.elem.cellwise with
                    | false => rfl
                    | true => exact absurd ((cellwise_iff _).mp hh) hcc
                  by_cases hab : a = b
                  · rw [hab]
                  · simp [sameElement, e1, e2, hab, hcw] at this
            · rw [if_pos c1] at this; cases this
          refine ⟨by simp, ?_, fun u hu => (key u hu).2.1, ?_, ?_⟩
          · intro u hu v hv
            rw [(key u hu).1, (key v hv).1]
          · intro pre post w he hpre hw
            rw [he, chooseSpace_points pre post w hpre hw] at hV
            cases hV
            cases hid : w.space.elem.ident with
            | true => rfl
            | false => exact absurd (Or.inr hid) hb
          · intro u hu v hv cu cv
            rw [(key u hu).2.2 cu, (key v hv).2.2 cv]

/-! ## Concrete cases and counterexamples -/

namespace FunOutCase

/-- Two triangles. -/
def mesh (gdim : Nat) : Mesh Int :=
  ⟨gdim, 2, [[0, 1, 2], [1, 3, 2]], [0, 0, 0, 1, 0, 0, 0, 1, 0, 1, 1, 0], 3, [5, 6, 7, 8], 3, 1, 1, true⟩

/-- Functions of degree one with values of a shape, with given numbers of dofs. -/
def space (id bs : Nat) (shape : List Nat) (dofs : List (List Nat)) : Space :=
  ⟨id, 0, [], ⟨some 1, true, 3 * bs, bs, shape⟩, dofs, bs, 10, 3, [4], bs, 1⟩

/-- Constants on cells. -/
def const (id : Nat) (dofs : List (List Nat)) : Space := ⟨id, 0, [], ⟨some 0, true, 1, 1, []⟩, dofs, 1, 10, 2, [], 1, 2⟩

/-- Coordinates of the nodes of cells. -/
def pts (c i j : Nat) : Int := ((mesh 2).x.getD (3 * (((mesh 2).nodes.getD c []).getD i 0) + j) 0)

def vector : Fn Int := ⟨space 0 2 [2] [[0, 1, 2], [1, 3, 2]], [1, 2, 3, 4, 5, 6, 7, 8]⟩
def scalar : Fn Int := ⟨space 1 1 [] [[0, 1, 2], [1, 3, 2]], [11, 12, 13, 14]⟩
def renumbered : Fn Int := ⟨space 2 1 [] [[3, 1, 2], [1, 0, 2]], [11, 12, 13, 14]⟩
def tensor : Fn Int := ⟨space 3 4 [2, 2] [[0, 1, 2], [1, 3, 2]], (List.range 16).map fun k => (k : Int) + 1⟩
def constant : Fn Int := ⟨const 4 [[0], [1]], [21, 22]⟩
def swapped : Fn Int := ⟨const 5 [[1], [0]], [21, 22]⟩

theorem space_ok (id bs : Nat) (shape : List Nat) (dofs : List (List Nat)) (hb : 0 < bs) (hs : shape.prod = bs) (hd : dofs.length = 2)
    (hr : ∀ ds ∈ dofs, ds.length = 3 ∧ ∀ d ∈ ds, d < 4) : SpaceOk (space id bs shape dofs) 2 where
  pos := hb
  map := rfl
  shape := hs
  cells := hd
  row := fun ds h => by rw [(hr ds h).1]; exact (Nat.mul_div_cancel _ hb).symm
  lt := fun ds h => (hr ds h).2

theorem const_ok (id : Nat) (dofs : List (List Nat)) (hd : dofs.length = 2) (hr : ∀ ds ∈ dofs, ds.length = 1 ∧ ∀ d ∈ ds, d < 2) :
    SpaceOk (const id dofs) 2 where
  pos := Nat.one_pos
  map := rfl
  shape := rfl
  cells := hd
  row := fun ds h => by rw [(hr ds h).1]; exact (Nat.div_self Nat.one_pos).symm
  lt := fun ds h => (hr ds h).2

theorem onePosition_of {X : Type} (V : Space) (gdim : Nat) (f : Nat → Nat → X) (p : Nat → Nat → Nat → X)
    (h : ∀ c i d j, V.dof c i = some d → p c i j = f d j) : OnePosition V gdim p := by
  intro c i c' i' d hd hd' j _
  rw [h c i d j hd, h c' i' d j hd']

theorem pts_one (V : Space) (hV : V.dofs = (mesh 2).nodes) (gdim : Nat) : OnePosition V gdim pts :=
  onePosition_of V gdim (fun d j => (mesh 2).x.getD (3 * d + j) 0) pts (by
    intro c i d j hd
    obtain ⟨ds, h1, h2⟩ := Option.bind_eq_some_iff.mp hd
    rw [pts, List.getD_eq_getElem?_getD (l := (mesh 2).nodes), ← hV, h1, Option.getD_some, List.getD_eq_getElem?_getD (l := ds), h2]
    rfl)

end FunOutCase

open FunOutCase

/-- A constant, a vector and a scalar function in a VTK file of a plane mesh. -/
example : ∃ g fs, vtkWrite (mesh 2) pts [0, 1, 2] [0, 1, 2] [constant, vector, scalar] = .ok (some (g, fs)) ∧ GridOf g vector.space 2 pts [0, 1, 2] ∧
    fs.length = 3 ∧ ∀ (j : Nat) (u : Fn Int), [constant, vector, scalar][j]? = some u → ∃ f, fs[j]? = some f ∧ FieldOf f vector.space u := by
  refine C87_vtk_partial (mesh 2) pts [0, 1, 2] [0, 1, 2] [constant] [scalar] vector ?_ (by unfold Constant; decide) (by decide) ?_ (by decide)
    (pts_one _ rfl _) ⟨rfl, by decide⟩
  · intro u hu
    cases List.mem_singleton.mp hu
    unfold Constant
    decide
  · intro u hu
    simp only [List.singleton_append, List.mem_cons, List.not_mem_nil, or_false] at hu
    rcases hu with rfl | rfl | rfl
    · exact ⟨⟨const_ok _ _ rfl (by decide), rfl⟩, rfl, rfl, rfl, Or.inl rfl, fun h => absurd h (by decide), fun h => absurd (by unfold Constant; decide) h⟩
    · exact ⟨⟨space_ok _ _ _ _ (by decide) rfl rfl (by decide), rfl⟩, rfl, rfl, rfl, Or.inr (Or.inl ⟨2, rfl⟩), fun _ => rfl,
        fun _ => ⟨rfl, rfl, rfl, fun _ => rfl, fun h => absurd h (by decide), fun h => absurd h (by decide)⟩⟩
    · exact ⟨⟨space_ok _ _ _ _ (by decide) rfl rfl (by decide), rfl⟩, rfl, rfl, rfl, Or.inl rfl, fun h => absurd h (by decide),
        fun _ => ⟨rfl, rfl, rfl, fun _ => rfl, fun h => absurd h (by decide), fun h => absurd h (by decide)⟩⟩

/-- What is in that file. -/
example : vtkWrite (mesh 2) pts [0, 1, 2] [0, 1, 2] [constant, vector, scalar] =
    .ok (some (⟨[0, 0, 0, 1, 0, 0, 0, 1, 0, 1, 1, 0], [10, 11, 12, 4], [0, 0, 0, 1], [0, 1, 2, 1, 3, 2], 3⟩,
      [⟨true, 1, [21, 22]⟩, ⟨false, 3, [1, 2, 0, 3, 4, 0, 5, 6, 0, 7, 8, 0]⟩, ⟨false, 1, [11, 12, 13, 14]⟩])) := by rfl

/-- On a three-dimensional mesh the dofmaps of scalar functions may differ: the value 14 of dof 3 stands at point 0. -/
example : vtkField 3 2 scalar.space renumbered = some ⟨false, 1, [14, 12, 13, 11]⟩ := by rfl

example : ∃ g fs, vtkWrite (mesh 3) pts [0, 1, 2] [0, 1, 2] [scalar, renumbered] = .ok (some (g, fs)) ∧ GridOf g scalar.space 3 pts [0, 1, 2] ∧
    fs.length = 2 ∧ ∀ (j : Nat) (u : Fn Int), [scalar, renumbered][j]? = some u → ∃ f, fs[j]? = some f ∧ FieldOf f scalar.space u := by
  refine C87_vtk_partial (mesh 3) pts [0, 1, 2] [0, 1, 2] [] [renumbered] scalar (by simp) (by unfold Constant; decide) (by decide) ?_ (by decide)
    (pts_one _ rfl _) ⟨rfl, by decide⟩
  intro u hu
  simp only [List.nil_append, List.mem_cons, List.not_mem_nil, or_false] at hu
  rcases hu with rfl | rfl
  · exact ⟨⟨space_ok _ _ _ _ (by decide) rfl rfl (by decide), rfl⟩, rfl, rfl, rfl, Or.inl rfl, fun _ => rfl,
      fun _ => ⟨rfl, rfl, rfl, fun _ => rfl, fun _ c i c' i' p h h' => by rw [h, h'], fun _ => by decide⟩⟩
  · refine ⟨⟨space_ok _ _ _ _ (by decide) rfl rfl (by decide), rfl⟩, rfl, rfl, rfl, Or.inl rfl, fun h => absurd h (by decide),
      fun _ => ⟨rfl, rfl, rfl, fun h => absurd rfl h, fun _ c i c' i' p h h' => ?_, fun _ => by decide⟩⟩
    obtain ⟨hc, hi, _⟩ := dof_lt (space_ok 1 1 [] [[0, 1, 2], [1, 3, 2]] (by decide) rfl rfl (by decide)) h
    obtain ⟨hc', hi', _⟩ := dof_lt (space_ok 1 1 [] [[0, 1, 2], [1, 3, 2]] (by decide) rfl rfl (by decide)) h'
    have e : scalar.space.dof c i = scalar.space.dof c' i' := by rw [h, h']
    have hi : i < 3 := hi
    have hi' : i' < 3 := hi'
    clear h h'
    interval_cases c <;> interval_cases c' <;> interval_cases i <;> interval_cases i' <;> first | rfl | (exact absurd e (by decide))

example : ∃ g fs, vtkWrite (mesh 2) pts [0, 1, 2] [0, 1, 2] [swapped] = .ok (some (g, fs)) ∧ fs = [⟨true, 1, [22, 21]⟩] ∧ g.cells = [0, 1, 2, 1, 3, 2] ∧
    g.ghost = [0, 0, 0, 1] := ⟨_, _, rfl, rfl, rfl, rfl⟩

/-- Points of a geometry mesh are those of the mesh. -/
example : ∃ g fs, vtkWrite (mesh 2) pts [0, 1, 2] [0, 1, 2] [swapped] = .ok (some (g, fs)) ∧ g.x = (mesh 2).x := by
  obtain ⟨g, fs, h, hx, _⟩ := C87_vtk_constants_partial (mesh 2) pts [0, 1, 2] [0, 1, 2] swapped [] (by
    intro u hu
    cases List.mem_singleton.mp hu
    exact ⟨⟨const_ok _ _ rfl (by decide), rfl⟩, rfl, rfl, rfl, Or.inl rfl, by unfold Constant; decide⟩) (by decide) (by decide) ⟨rfl, by decide⟩
  exact ⟨g, fs, h, hx⟩

/-- The file of two processes that hold the same part of the mesh (three nodes owned by each): values at nodes follow each other. -/
example : ∃ fs item, ([(mesh 2, vector), (mesh 2, vector)].mapM fun p => xdmfField p.1 p.2) = .ok fs ∧ xdmfWrite fs 3 = .ok item ∧
    item.rows = [[1, 2, 0], [3, 4, 0], [5, 6, 0], [1, 2, 0], [3, 4, 0], [5, 6, 0]] := ⟨_, _, rfl, by rfl, rfl⟩

example : NodesFit (mesh 2) vector where
  fn := ⟨space_ok _ _ _ _ (by decide) rfl rfl (by decide), rfl⟩
  width := by decide
  dim := rfl
  follows := fun c i c' i' g h h' => by
    have e : ∀ c i, vector.space.dof c i = ((mesh 2).nodes[c]?).bind fun r => r[i]? := fun _ _ => rfl
    rw [e, e, h, h']

example : ∃ fs item, ([(mesh 2, constant)].mapM fun p => xdmfField p.1 p.2) = .ok fs ∧ xdmfWrite fs 1 = .ok item ∧ item.rows = [[21], [22]] :=
  ⟨_, _, rfl, by rfl, rfl⟩

/-- A VTX file with a vector, a scalar and a constant. -/
example : ∃ g fs, vtxWrite (mesh 2) pts [0, 1, 2] [0, 1, 2] [vector, scalar, constant] = .ok (g, fs) ∧ GridOf g vector.space 2 pts [0, 1, 2] ∧
    fs.length = 3 ∧ ∀ (j : Nat) (u : Fn Int), [vector, scalar, constant][j]? = some u → ∃ f, fs[j]? = some f ∧ FieldOf f vector.space u := by
  refine C87_vtx_partial (mesh 2) pts [0, 1, 2] [0, 1, 2] [scalar, constant] vector (by unfold Constant; decide) (by decide) ?_ rfl
    (pts_one _ rfl _) ⟨rfl, by decide⟩
  intro u hu
  simp only [List.mem_cons, List.not_mem_nil, or_false] at hu
  rcases hu with rfl | rfl | rfl
  · exact ⟨⟨space_ok _ _ _ _ (by decide) rfl rfl (by decide), rfl⟩, rfl, by decide, Or.inr (Or.inl ⟨2, rfl⟩), fun _ => ⟨rfl, rfl, rfl⟩,
      fun h => absurd h (by unfold Constant; decide)⟩
  · exact ⟨⟨space_ok _ _ _ _ (by decide) rfl rfl (by decide), rfl⟩, rfl, by decide, Or.inl rfl, fun _ => ⟨rfl, rfl, rfl⟩,
      fun h => absurd h (by unfold Constant; decide)⟩
  · refine ⟨⟨const_ok _ _ rfl (by decide), rfl⟩, rfl, by decide, Or.inl rfl, fun h => absurd (by unfold Constant; decide) h, fun _ => ⟨rfl, ?_⟩⟩
    intro c hc
    have hc : c < 2 := hc
    interval_cases c <;> rfl

theorem notField (f : DataField Int) (V0 : Space) (u : Fn Int) (c k p q j : Nat) (hc : ¬ Constant u.space) (hp : V0.dof c k = some p) (hq : u.space.dof c k = some q)
    (hj : j < (shown u.space.elem.shape (nodal u q)).length) (h : f.values[f.nc * p + j]? ≠ (shown u.space.elem.shape (nodal u q))[j]?) : ¬ FieldOf f V0 u :=
  fun hf => h (((hf.2 hc).2.2 c k p q hp hq).2 j hj)

/-- **Vectors with two components on a three-dimensional mesh** (say a surface): the values are written without padding although the field is declared to have three
components, so that all but the first stand at wrong places and the array is too short. -/
theorem C87_refuted_vtk_unpadded : ∃ (u : Fn Int) (g : Grid Int) (f : DataField Int),
    FnOk u 2 ∧ u.space.elem.shape = [2] ∧ vtkWrite (mesh 3) pts [0, 1, 2] [0, 1, 2] [u] = .ok (some (g, [f])) ∧ f.nc = 3 ∧ f.values.length = 8 ∧
    ¬ FieldOf f u.space u :=
  ⟨vector, _, _, ⟨space_ok _ _ _ _ (by decide) rfl rfl (by decide), rfl⟩, rfl, rfl, rfl, rfl,
    notField _ _ _ 0 1 1 1 0 (by unfold Constant; decide) rfl rfl (by decide) (by decide)⟩

/-- **Functions with different dofmaps on a plane mesh**: the values that are carried over to the points of the first function are thrown away, and the vector of the function is
written as it is. -/
theorem C87_refuted_vtk_dofmaps : ∃ (u0 u : Fn Int) (g : Grid Int) (f0 f : DataField Int),
    FnOk u0 2 ∧ FnOk u 2 ∧ u.space.elem = u0.space.elem ∧ Follows u0.space u.space ∧
    vtkWrite (mesh 2) pts [0, 1, 2] [0, 1, 2] [u0, u] = .ok (some (g, [f0, f])) ∧ ¬ FieldOf f u0.space u := by
  refine ⟨scalar, renumbered, _, _, _, ⟨space_ok _ _ _ _ (by decide) rfl rfl (by decide), rfl⟩, ⟨space_ok _ _ _ _ (by decide) rfl rfl (by decide), rfl⟩, rfl, ?_, rfl,
    notField _ _ _ 0 0 0 3 0 (by unfold Constant; decide) rfl rfl (by decide) (by decide)⟩
  intro c i c' i' p h h'
  obtain ⟨hc, hi, _⟩ := dof_lt (space_ok 1 1 [] [[0, 1, 2], [1, 3, 2]] (by decide) rfl rfl (by decide)) h
  obtain ⟨hc', hi', _⟩ := dof_lt (space_ok 1 1 [] [[0, 1, 2], [1, 3, 2]] (by decide) rfl rfl (by decide)) h'
  have e : scalar.space.dof c i = scalar.space.dof c' i' := by rw [h, h']
  have hi : i < 3 := hi
  have hi' : i' < 3 := hi'
  clear h h'
  interval_cases c <;> interval_cases c' <;> interval_cases i <;> interval_cases i' <;> first | rfl | (exact absurd e (by decide))

/-- **Matrices with two columns**: the four entries are written to the first four places of the nine, so that a viewer sees the second row in the first and second. -/
theorem C87_refuted_vtk_tensor : ∃ (u : Fn Int) (g : Grid Int) (f : DataField Int),
    FnOk u 2 ∧ u.space.elem.shape = [2, 2] ∧ vtkWrite (mesh 2) pts [0, 1, 2] [0, 1, 2] [u] = .ok (some (g, [f])) ∧
    f.values.take 9 = [1, 2, 3, 4, 0, 0, 0, 0, 0] ∧ shown [2, 2] (nodal u 0) = [1, 2, 0, 3, 4, 0, 0, 0, 0] ∧ ¬ FieldOf f u.space u :=
  ⟨tensor, _, _, ⟨space_ok _ _ _ _ (by decide) rfl rfl (by decide), rfl⟩, rfl, rfl, by rfl, by decide,
    notField _ _ _ 0 0 0 0 2 (by unfold Constant; decide) rfl rfl (by decide) (by decide)⟩

/-- The same in XDMF files. -/
theorem C87_refuted_xdmf_tensor : ∃ (u : Fn Int) (f : DataField Int), FnOk u 2 ∧ u.space.elem.shape = [2, 2] ∧ xdmfField (mesh 2) u = .ok f ∧
    (rows 9 1 f.values)[0]? = some [1, 2, 3, 4, 0, 0, 0, 0, 0] ∧ shown [2, 2] (nodal u 0) = [1, 2, 0, 3, 4, 0, 0, 0, 0] :=
  ⟨tensor, _, ⟨space_ok _ _ _ _ (by decide) rfl rfl (by decide), rfl⟩, rfl, rfl, by rfl, by decide⟩

/-- **Vector-valued sub-functions in XDMF files** are not refused: the view of a vector sub-space in a mixed space has the dofs of all components in each cell, and the loop
reads beyond the nodes of the cell. -/
theorem C87_refuted_xdmf_sub : ∃ u : Fn Int, u.space.component = [0] ∧ u.space.elem = ⟨some 1, true, 6, 2, [2]⟩ ∧ u.space.bs = 1 ∧
    u.space.dofs = [[0, 1, 3, 4, 6, 7], [3, 4, 9, 10, 6, 7]] ∧ u.x.length = 12 ∧ u.space.layout = (mesh 2).cmapLayout ∧
    xdmfField (mesh 2) u = .error .range :=
  ⟨⟨⟨0, 0, [0], ⟨some 1, true, 6, 2, [2]⟩, [[0, 1, 3, 4, 6, 7], [3, 4, 9, 10, 6, 7]], 1, 0, 12, [], 1, 1⟩, List.replicate 12 5⟩, rfl, rfl, rfl, rfl, rfl, rfl, rfl⟩

/-- **VTX: a constant first.** The points are made from the space of the first function even if it is constant and others are not: the grid has one point for each cell, and the
point-wise fields have more rows than there are points. -/
theorem C87_refuted_vtx_first : ∃ (g : Grid Int) (f0 f : DataField Int), vtxWrite (mesh 2) pts [0] [0, 1, 2] [constant, scalar] = .ok (g, [f0, f]) ∧
    g.x.length = 3 * 2 ∧ g.width = 1 ∧ f.cell = false ∧ f.values.length = 4 := ⟨_, _, _, rfl, rfl, rfl, rfl, rfl⟩

/-- **VTX: another dofmap.** Outside of debug builds, functions with a different numbering of the dofs are accepted and written in their own order. -/
theorem C87_refuted_vtx_dofmaps : ∃ (g : Grid Int) (f0 f : DataField Int), vtxWrite (mesh 2) pts [0, 1, 2] [0, 1, 2] [scalar, renumbered] = .ok (g, [f0, f]) ∧
    FnOk scalar 2 ∧ FnOk renumbered 2 ∧ ¬ FieldOf f scalar.space renumbered :=
  ⟨_, _, _, rfl, ⟨space_ok _ _ _ _ (by decide) rfl rfl (by decide), rfl⟩, ⟨space_ok _ _ _ _ (by decide) rfl rfl (by decide), rfl⟩,
    notField _ _ _ 0 0 0 3 0 (by unfold Constant; decide) rfl rfl (by decide) (by decide)⟩

/-- **VTX: constants in the order of dofs.** The values of constants are written in the order of their dofs, not of the cells. -/
theorem C87_refuted_vtx_cells : ∃ (g : Grid Int) (f : DataField Int), vtxWrite (mesh 2) pts [0, 1, 2] [0, 1, 2] [swapped] = .ok (g, [f]) ∧ FnOk swapped 2 ∧
    f.cell = true ∧ f.values = [21, 22] ∧ ¬ FieldOf f swapped.space swapped := by
  refine ⟨_, _, rfl, ⟨const_ok _ _ rfl (by decide), rfl⟩, rfl, rfl, ?_⟩
  intro hf
  have := ((hf.1 (by unfold Constant; decide)).2.2 0 1 rfl).2 0 (by decide)
  exact absurd this (by decide)

end Verif.Props
