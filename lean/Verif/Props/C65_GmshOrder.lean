import Verif.Lemmas.CellPermMain
/-!
# C65: cells keep their shape when they are read from Gmsh
-/
namespace Verif.Props
open Verif.CellPerm Verif.Spec
open Verif.Connectivity (CellType)

/-- Cells whose nodes are listed in Gmsh's order are turned into cells with the same nodes in DOLFINx' order. -/
theorem C65_read (t : CellType) (N : Nat) (P G : List Pt) (h : GmshOrder t N P G) (hN : N ≤ 65536)
    (cells : List Int) (rows : Nat) (hc : cells.length = rows * N) (pos : Nat → Int → Pt) (hV : NodesAt cells rows N pos G) :
    ∃ out, readGmsh cells rows N t = .ok out ∧ out.length = rows * N ∧ NodesAt out rows N pos P := by
  obtain ⟨m, hm, hP, hr⟩ := gmsh_table t N P G h hN
  obtain ⟨p, hp, hpm, -, -, happ, hread, -, -⟩ := reorder_main m N P G hN hP hr
  refine ⟨takeRows cells rows N p, ?_, takeRows_length _ _ _ _, hread cells rows pos hV⟩
  simp only [readGmsh, permGmsh, hm, hp, bind, Except.bind]
  exact (happ cells rows hc).1

/-- The array returned by `perm_gmsh` is a permutation, and gives for each node of DOLFINx the place in Gmsh's order. -/
theorem C65_perm (t : CellType) (N : Nat) (P G : List Pt) (h : GmshOrder t N P G) (hN : N ≤ 65536) :
    P.length = N ∧ G.length = N ∧ ∃ p, permGmsh t N = .ok p ∧ p.Perm (List.range N) ∧ ∀ i j : Nat, p[i]? = some j → P[i]? = G[j]? := by
  obtain ⟨m, hm, hP, hr⟩ := gmsh_table t N P G h hN
  have hl : m.length = N := by rw [hr.len, hP]
  have hall : ∀ j, j < N → j ∈ m := fun j hj => hr.all j (by omega)
  obtain ⟨p, hp, hpl, hg, hpall, -⟩ := transpose_spec m N hl hN hall
  have hpick := picks_inv P G m p N hP hpl hr.pick hg hall
  refine ⟨hP, by rw [picks_length P G m hr.pick, hl], p, by simp only [permGmsh, hm, hp, bind, Except.bind],
    (all_perm p N hpl hpall).symm, ?_⟩
  intro i j hij
  have := congrArg (fun l => l[i]?) hpick
  simp only [List.getElem?_map, hij, Option.map_some] at this
  have hi : i < P.length := by have := (List.getElem?_eq_some_iff.1 hij).1; omega
  rw [List.getElem?_eq_getElem hi] at this ⊢
  simpa using this.symm

/-- Other numbers of nodes are refused. -/
theorem C65_refused (t : CellType) (N : Nat) (p : List Nat) (hp : permGmsh t N = .ok p) :
    t = .point ∨ t = .interval ∨ ∃ P G, GmshOrder t N P G := by
  have key : (∃ m, gmshMap t N = .ok m) := by
    simp only [permGmsh, bind_ok] at hp
    obtain ⟨m, hm, -⟩ := hp
    exact ⟨m, hm⟩
  obtain ⟨m, hm⟩ := key
  cases t with
  | point => exact Or.inl rfl
  | interval => exact Or.inr (Or.inl rfl)
  | triangle =>
    refine Or.inr (Or.inr ?_)
    simp only [gmshMap] at hm
    split at hm
    · subst N; exact ⟨_, _, .triangle 1 (by omega)⟩
    · split at hm
      · subst N; exact ⟨_, _, .triangle 2 (by omega)⟩
      · split at hm
        · subst N; exact ⟨_, _, .triangle 3 (by omega)⟩
        · cases hm
  | tetrahedron =>
    refine Or.inr (Or.inr ?_)
    simp only [gmshMap] at hm
    split at hm
    · subst N; exact ⟨_, _, .tetrahedron 1 (by omega)⟩
    · split at hm
      · subst N; exact ⟨_, _, .tetrahedron 2 (by omega)⟩
      · split at hm
        · subst N; exact ⟨_, _, .tetrahedron 3 (by omega)⟩
        · cases hm
  | quadrilateral =>
    refine Or.inr (Or.inr ?_)
    simp only [gmshMap] at hm
    split at hm
    · subst N; exact ⟨_, _, .quadrilateral 1 (by omega)⟩
    · split at hm
      · subst N; exact ⟨_, _, .quadrilateral 2 (by omega)⟩
      · split at hm
        · subst N; exact ⟨_, _, .quadrilateral 3 (by omega)⟩
        · cases hm
  | hexahedron =>
    refine Or.inr (Or.inr ?_)
    simp only [gmshMap] at hm
    split at hm
    · subst N; exact ⟨_, _, .hexahedron8⟩
    · split at hm
      · subst N; exact ⟨_, _, .hexahedron27⟩
      · cases hm
  | prism =>
    refine Or.inr (Or.inr ⟨_, _, .prism N ?_⟩)
    simp only [gmshMap] at hm
    split at hm
    · left; assumption
    · split at hm
      · right; left; assumption
      · split at hm
        · right; right; assumption
        · cases hm
  | pyramid =>
    refine Or.inr (Or.inr ⟨_, _, .pyramid N ?_⟩)
    simp only [gmshMap] at hm
    split at hm
    · left; assumption
    · split at hm
      · right; left; assumption
      · split at hm
        · right; right; assumption
        · cases hm

/-! ## Examples -/

/-- A tetrahedron of degree three. -/
example : GmshOrder .tetrahedron 20 (basixTet 3) (gmshTet 3) := .tetrahedron 3 (by omega)

example : (basixTet 3).Nodup ∧ (basixTet 3).Perm (gmshTet 3) ∧ basixTet 3 ≠ gmshTet 3 := by decide +kernel

example : readGmsh [20, 21, 22, 23, 24, 25] 1 6 .triangle = .ok [20, 21, 22, 24, 25, 23] := by rfl

example : NodesAt [20, 21, 22, 23, 24, 25] 1 6 (fun _ v => (gmshTri 2).getD (v - 20).toNat (0, 0, 0)) (gmshTri 2) := by
  intro c hc i hi
  have : c = 0 := by omega
  subst this
  interval_cases i <;> exact ⟨_, rfl, rfl⟩

end Verif.Props
