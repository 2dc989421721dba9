import Verif.Model.World
/-! `World.Valid` by computation, for examples. -/
namespace Verif.World

theorem valid_of_check (w : World)
    (h : ∀ r < w.P, (w.owners r).length = (w.ghosts r).length ∧ (w.ghosts r).Nodup ∧
      ∀ p ∈ (w.owners r).zip (w.ghosts r), p.1 < w.P ∧ p.1 ≠ r ∧ w.r0 p.1 ≤ p.2 ∧ p.2 < w.r0 p.1 + w.size p.1) : w.Valid :=
  ⟨fun r hr => (h r hr).1, fun r hr => (h r hr).2.1, fun r hr _ q g hq hg =>
    (h r hr).2.2 (q, g) (List.mem_of_getElem? (List.getElem?_zip_eq_some.mpr ⟨hq, hg⟩))⟩

end Verif.World
