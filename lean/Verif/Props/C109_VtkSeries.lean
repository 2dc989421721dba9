import Verif.Spec.VtkSeries
import Verif.Lemmas.VtkhdfWrite
import Verif.Lemmas.DofmapExchange
/-!
# C109: time series of point and cell data in VTKHDF files
-/
namespace Verif.Props
open Verif.VtkSeries Verif.Spec.VtkSeries
open Verif.Vtkhdf (accumulate accumulate_eq writeRows)
open Verif.Offsets (excl excl_succ excl_mono)

variable {α τ : Type}

theorem vts_writes {β : Type} (fill : β) (old : List β) (P : Nat) (len : Nat → Nat) (buf : Nat → List β) (start stop : Nat → Int)
    (hs : ∀ r < P, start r = ((old.length + excl len r : Nat) : Int))
    (he : ∀ r < P, stop r = ((old.length + excl len r + len r : Nat) : Int))
    (hb : ∀ r < P, (buf r).length = len r) (size : Int) (hz : size = ((old.length + excl len P : Nat) : Int)) :
    ((List.range P).map fun r => (start r, stop r, buf r)).foldlM
      (fun d (p : Int × Int × List β) => writeRows size p.1 p.2.1 p.2.2 d) (old ++ List.replicate (excl len P) fill) =
      .ok (old ++ (List.range P).flatMap buf) := by
  have key : ∀ n, n ≤ P → ((List.range n).map fun r => (start r, stop r, buf r)).foldlM
      (fun d (p : Int × Int × List β) => writeRows size p.1 p.2.1 p.2.2 d) (old ++ List.replicate (excl len P) fill) =
      .ok ((old ++ (List.range n).flatMap buf) ++ List.replicate (excl len P - excl len n) fill) := by
    intro n
    induction n with
    | zero =>
      intro _
      simp only [List.range_zero, List.map_nil, List.foldlM_nil, List.flatMap_nil, List.append_nil, Verif.Offsets.excl_zero]
      rfl
    | succ n ih =>
      intro hn
      have hex := excl_succ len n
      have hmo := excl_mono len hn
      have hl : (old ++ (List.range n).flatMap buf).length = old.length + excl len n := by
        rw [List.length_append, Verif.Offsets.length_flatMap_range]
        congr 1
        apply Verif.Offsets.excl_congr
        intro i hi
        exact hb i (by omega)
      rw [List.range_succ, List.map_append, List.foldlM_append, ih (by omega)]
      simp only [List.map_cons, List.map_nil, List.foldlM_cons, List.foldlM_nil, bind, Except.bind]
      rw [writeRows, if_neg (by rw [hs n hn, he n hn, hz]; omega), if_neg (by have := hb n hn; rw [hs n hn, he n hn]; omega)]
      simp only [pure, Except.pure]
      have e1 : (start n).toNat = old.length + excl len n := by rw [hs n hn]; omega
      have e2 : (stop n).toNat = old.length + excl len n + len n := by rw [he n hn]; omega
      have e3 : (stop n - start n).toNat = (buf n).length := by rw [hs n hn, he n hn, hb n hn]; omega
      rw [e1, e2, e3]
      congr 1
      rw [List.flatMap_append]
      simp only [List.flatMap_cons, List.flatMap_nil, List.append_nil]
      rw [List.take_left' hl, ← List.drop_drop, List.drop_left' hl, List.drop_replicate, hex, List.take_length]
      simp only [List.append_assoc]
      congr 4
      omega
  rw [key P (le_refl _)]
  simp

theorem vts_excl (maps : List (Nat → Nat)) (r : Nat) : (maps.map fun m => excl m r).sum = excl (owned maps) r := by
  induction maps with
  | nil =>
    have : owned [] = fun _ => 0 := rfl
    rw [this]
    simp [excl]
  | cons m maps ih =>
    have : owned (m :: maps) = fun k => m k + owned maps k := by
      funext k; simp [owned]
    rw [List.map_cons, List.sum_cons, ih, this, Verif.Dofmap.excl_add]

/-- The file after these calls. -/
private def seriesFile (P : Nat) (maps : Kind → List (Nat → Nat)) (kind : Kind) (w : Nat) (cs : List ((Nat → List α) × τ)) : TFile α τ :=
  { nsteps := if cs = [] then none else some (cs.length : Int)
    cellOffsets := List.replicate cs.length 0
    connOffsets := List.replicate cs.length 0
    parts := List.replicate cs.length 1
    partOffsets := List.replicate cs.length 0
    pointOffsets := List.replicate cs.length 0
    dataOffsets := fun k => if k = kind then (List.range cs.length).map fun i => ((i * total P (maps kind) : Nat) : Int) else []
    values := cs.map (·.2)
    u := fun k => if k = kind ∧ cs ≠ [] then some ⟨w, cs.flatMap fun c => meshRows P (maps kind) w c.1⟩ else none }

theorem vts_rows_length (P : Nat) (maps : List (Nat → Nat)) (w : Nat) (data : Nat → List α) :
    (meshRows P maps w data).length = total P maps := by
  rw [meshRows, Verif.Offsets.length_flatMap_range, total, excl]
  simp

theorem vts_all_length (P : Nat) (maps : List (Nat → Nat)) (w : Nat) (cs : List ((Nat → List α) × τ)) :
    (cs.flatMap fun c => meshRows P maps w c.1).length = cs.length * total P maps := by
  induction cs with
  | nil => simp
  | cons c cs ih => rw [List.flatMap_cons, List.length_append, ih, vts_rows_length, List.length_cons]; ring

theorem vts_row_width (P : Nat) (maps : List (Nat → Nat)) (w : Nat) (data : Nat → List α)
    (hd : ∀ r, r < P → (data r).length = owned maps r * w) (row : List α) (h : row ∈ meshRows P maps w data) : row.length = w := by
  rw [meshRows, List.mem_flatMap] at h
  obtain ⟨r, hr, h⟩ := h
  obtain ⟨i, hi, rfl⟩ := List.mem_map.mp h
  rw [List.mem_range] at hr hi
  have h1 : w * (i + 1) ≤ owned maps r * w := by rw [mul_comm (owned maps r)]; exact Nat.mul_le_mul_left w hi
  rw [List.length_take, List.length_drop, hd r hr]
  rw [mul_add, mul_one] at h1
  omega

theorem vts_owned_le (P : Nat) (maps : List (Nat → Nat)) (r : Nat) (hr : r < P) :
    excl (owned maps) r + owned maps r ≤ total P maps := Verif.Offsets.excl_lt (owned maps) hr

theorem vts_width (P : Nat) (maps : List (Nat → Nat)) (w : Nat) (data : Nat → List α) (hsz : total P maps < 2147483648)
    (hown : ∀ r, r < P → 0 < owned maps r) (hd : ∀ r, r < P → (data r).length = owned maps r * w) :
    (List.range P).mapM (dataWidth maps data) = some (List.replicate P w) := by
  have key : ∀ n, n ≤ P → (List.range n).mapM (dataWidth maps data) = some (List.replicate n w) := by
    intro n
    induction n with
    | zero => intro _; rfl
    | succ n ih =>
      intro hn
      have hn' : n < P := hn
      have h1 := vts_owned_le P maps n hn'
      have h0 := hown n hn'
      have e : npoints maps n = (owned maps n : Int) := accumulate_eq _ (by show owned maps n < _; omega)
      have e1 : dataWidth maps data n = some w := by
        unfold dataWidth
        simp only [e, Int.toNat_natCast, hd n hn']
        rw [if_neg (by omega), if_neg (by simp), Nat.mul_div_cancel_left _ h0]
      rw [List.range_succ, List.mapM_append, ih (by omega)]
      simp [e1, List.replicate_succ']
  exact key P (le_refl _)

theorem vts_writeU (fill : α) (P : Nat) (maps : List (Nat → Nat)) (w : Nat) (hw : 0 < w) (data : Nat → List α)
    (hsz : total P maps < 2147483648) (hd : ∀ r, r < P → (data r).length = owned maps r * w)
    (old : Option (DSet α)) (ho : ∀ d, old = some d → ∀ row ∈ d.rows, row.length = w) :
    writeU fill P maps data w old = .ok ⟨w, ((old.map (·.rows)).getD []) ++ meshRows P maps w data⟩ := by
  have hg : globalSize P maps = (total P maps : Int) := by
    have : (maps.map fun m => excl m P).sum = total P maps := vts_excl maps P
    unfold globalSize
    rw [accumulate_eq _ (by omega), this]
  have hr0 : ∀ r, r < P → range0 maps r = ((excl (owned maps) r : Nat) : Int) := by
    intro r hr
    have h1 := vts_owned_le P maps r hr
    unfold range0
    rw [accumulate_eq _ (by rw [vts_excl]; omega), vts_excl]
  have hnp : ∀ r, r < P → npoints maps r = (owned maps r : Int) := by
    intro r hr
    have h1 := vts_owned_le P maps r hr
    exact accumulate_eq _ (by show owned maps r < _; omega)
  have htot : total P maps = excl (owned maps) P := rfl
  have hall : ((List.range P).flatMap fun r => toRows w (npoints maps r).toNat (data r)) = meshRows P maps w data := by
    unfold meshRows
    rw [List.flatMap_def, List.flatMap_def]
    congr 1
    apply List.map_congr_left
    intro r hr
    rw [List.mem_range] at hr
    rw [hnp r hr, Int.toNat_natCast, toRows]
    apply List.map_congr_left
    intro i _
    rw [mul_comm]
  have hlen : ∀ r, r < P → (toRows w (npoints maps r).toNat (data r)).length = owned maps r := by
    intro r hr
    rw [hnp r hr, Int.toNat_natCast, toRows]; simp
  unfold writeU
  rw [hg]
  simp only []
  rw [if_neg (by omega)]
  cases old with
  | none =>
    have h := vts_writes (List.replicate w fill) [] P (owned maps) (fun r => toRows w (npoints maps r).toNat (data r))
      (fun r => range0 maps r + 0) (fun r => range0 maps r + npoints maps r + 0)
      (fun r hr => by rw [hr0 r hr]; simp) (fun r hr => by rw [hr0 r hr, hnp r hr]; simp) hlen
      ((total P maps : Int) + 0) (by simp [htot])
    simp only [List.nil_append, ← htot] at h
    have e : ((total P maps : Int) + 0).toNat = total P maps := by omega
    simp only [e, h, hall, Option.map_none, Option.getD_none, List.nil_append]
  | some d =>
    have h := vts_writes (List.replicate w fill) d.rows P (owned maps) (fun r => toRows w (npoints maps r).toNat (data r))
      (fun r => range0 maps r + (d.rows.length : Int)) (fun r => range0 maps r + npoints maps r + (d.rows.length : Int))
      (fun r hr => by rw [hr0 r hr]; push_cast; ring) (fun r hr => by rw [hr0 r hr, hnp r hr]; push_cast; ring) hlen
      ((total P maps : Int) + (d.rows.length : Int)) (by rw [htot]; push_cast; ring)
    have e : ((total P maps : Int) + (d.rows.length : Int)).toNat = total P maps + d.rows.length := by omega
    have e1 : extend fill (total P maps + d.rows.length) w d = d.rows ++ List.replicate (excl (owned maps) P) (List.replicate w fill) := by
      unfold extend
      rw [List.take_of_length_le (by omega), Nat.add_sub_cancel, ← htot]
      congr 1
      rw [List.map_congr_left (g := id), List.map_id]
      intro row hrow
      have := ho d rfl row hrow
      rw [fitRow, List.take_of_length_le (by omega), this]; simp
    simp only [e, e1, h, hall, Option.map_some, Option.getD_some]

theorem vts_step (fill : α) (P : Nat) (hP : 0 < P) (maps : Kind → List (Nat → Nat)) (kind : Kind) (w : Nat) (hw : 0 < w)
    (hsz : total P (maps kind) < 2147483648) (hown : ∀ r, r < P → 0 < owned (maps kind) r)
    (cs : List ((Nat → List α) × τ)) (hcs : ∀ c ∈ cs, ∀ r, r < P → (c.1 r).length = owned (maps kind) r * w)
    (c : (Nat → List α) × τ) (hc : ∀ r, r < P → (c.1 r).length = owned (maps kind) r * w) :
    writeData fill P maps kind c.1 c.2 (seriesFile P maps kind w cs) = (seriesFile P maps kind w (cs ++ [c]), true) := by
  have hwid := vts_width P (maps kind) w c.1 hsz hown hc
  have hhead : (List.replicate P w).headD 0 = w := by
    cases P with
    | zero => omega
    | succ n => rfl
  have hany : (List.replicate P w).any (· != w) = false := by
    rw [List.any_eq_false]
    intro x hx
    rw [List.eq_of_mem_replicate hx]; simp
  have hrow : ∀ row ∈ (cs.flatMap fun c => meshRows P (maps kind) w c.1), row.length = w := by
    intro row hr
    obtain ⟨c', hc', hr⟩ := List.mem_flatMap.mp hr
    exact vts_row_width P (maps kind) w c'.1 (hcs c' hc') row hr
  have hu := vts_writeU fill P (maps kind) w hw c.1 hsz hc ((seriesFile P maps kind w cs).u kind) (by
    intro d hd
    simp only [seriesFile] at hd
    split at hd
    · cases hd; exact hrow
    · cases hd)
  have hcount : countStep (seriesFile P maps kind w cs) kind =
      ({ seriesFile P maps kind w cs with nsteps := some ((cs.length : Int) + 1) }, some ((cs.length * total P (maps kind) : Nat) : Int)) := by
    unfold countStep
    by_cases hn : cs = []
    · subst hn; simp [seriesFile]
    · have : (seriesFile P maps kind w cs).nsteps = some (cs.length : Int) := if_neg hn
      rw [this]
      have h2 : (seriesFile P maps kind w cs).u kind = some ⟨w, cs.flatMap fun c => meshRows P (maps kind) w c.1⟩ := if_pos ⟨rfl, hn⟩
      simp only [h2, Option.map_some, vts_all_length]
  unfold writeData
  rw [hwid]
  simp only [hcount, hhead, hany, Bool.false_eq_true, if_false]
  have hu' : (appendSteps { seriesFile P maps kind w cs with nsteps := some ((cs.length : Int) + 1) } kind
      ((cs.length * total P (maps kind) : Nat) : Int) c.2).u kind = (seriesFile P maps kind w cs).u kind := rfl
  rw [hu', hu]
  simp only []
  congr 1
  have hold : (((seriesFile P maps kind w cs).u kind).map (·.rows)).getD [] =
      cs.flatMap fun c => meshRows P (maps kind) w c.1 := by
    by_cases hn : cs = []
    · subst hn; simp [seriesFile]
    · have h2 : (seriesFile P maps kind w cs).u kind = some ⟨w, cs.flatMap fun c => meshRows P (maps kind) w c.1⟩ := if_pos ⟨rfl, hn⟩
      rw [h2]; rfl
  rw [hold]
  unfold appendSteps
  have hl : (cs ++ [c]).length = cs.length + 1 := by simp
  have hne : cs ++ [c] ≠ [] := by simp
  simp only [seriesFile, hl, List.replicate_succ', if_neg hne, List.map_append, List.map_cons, List.map_nil, List.range_succ]
  congr 1
  · funext k
    by_cases hk : k = kind <;> simp [hk]
  · funext k
    by_cases hk : k = kind <;> simp [hk]

theorem vts_all (fill : α) (P : Nat) (hP : 0 < P) (maps : Kind → List (Nat → Nat)) (kind : Kind) (w : Nat) (hw : 0 < w)
    (hsz : total P (maps kind) < 2147483648) (hown : ∀ r, r < P → 0 < owned (maps kind) r)
    (cs : List ((Nat → List α) × τ)) (hcs : ∀ c ∈ cs, ∀ r, r < P → (c.1 r).length = owned (maps kind) r * w) :
    writeAll fill P maps kind cs fresh = (seriesFile P maps kind w cs, true) := by
  induction cs using List.reverseRecOn with
  | nil =>
    have : seriesFile P maps kind w [] = (fresh : TFile α τ) := by
      simp only [seriesFile, fresh, ne_eq, not_true, and_false, if_false, if_true, List.length_nil, List.replicate_zero, List.range_zero,
        List.map_nil, ite_self]
    rw [this]; rfl
  | append_singleton cs c ih =>
    have h1 : ∀ c ∈ cs, ∀ r, r < P → (c.1 r).length = owned (maps kind) r * w := fun c' hc' => hcs c' (by simp [hc'])
    have ih' := ih h1
    unfold writeAll at ih' ⊢
    rw [List.foldl_append, ih']
    simp only [List.foldl_cons, List.foldl_nil, if_true]
    exact vts_step fill P hP maps kind w hw hsz hown cs h1 c (hcs c (by simp))

theorem vts_slice (P : Nat) (maps : List (Nat → Nat)) (w : Nat) (cs : List ((Nat → List α) × τ)) (k : Nat) (hk : k < cs.length) :
    ((cs.flatMap fun c => meshRows P maps w c.1).drop (k * total P maps)).take (total P maps) = meshRows P maps w (cs[k]).1 := by
  induction cs generalizing k with
  | nil => simp at hk
  | cons c cs ih =>
    rw [List.flatMap_cons]
    cases k with
    | zero => simp [List.take_left' (vts_rows_length P maps w c.1)]
    | succ k =>
      have : (k + 1) * total P maps = total P maps + k * total P maps := by ring
      rw [this, ← List.drop_drop, List.drop_left' (vts_rows_length P maps w c.1)]
      exact ih k (by simpa using hk)

/-- On any number of processes that all have points (or cells), any number of calls that write data of one width: every call returns, and the file
has exactly these steps, each with its time and the values of all points in the order of the file. Missing from the property: processes without
points, point and cell data in one file, changes of width, more than 2³¹ points (all refuted below). -/
theorem C109_series_partial (fill : α) (P : Nat) (hP : 0 < P) (maps : Kind → List (Nat → Nat)) (kind : Kind) (w : Nat) (hw : 0 < w)
    (hsz : total P (maps kind) < 2147483648) (hown : ∀ r, r < P → 0 < owned (maps kind) r)
    (calls : List ((Nat → List α) × τ)) (hfit : ∀ c ∈ calls, ∀ r, r < P → (c.1 r).length = owned (maps kind) r * w) :
    ∃ f, writeAll fill P maps kind calls fresh = (f, true) ∧
      HoldsSteps f kind (total P (maps kind)) (calls.map fun c => (c.2, meshRows P (maps kind) w c.1)) := by
  refine ⟨_, vts_all fill P hP maps kind w hw hsz hown calls hfit, ?_, ?_, ?_, ?_⟩
  · simp [seriesFile]
  · simp [seriesFile]
  · simp [seriesFile]
  · intro k hk
    rw [List.length_map] at hk
    have hne : calls ≠ [] := by rintro rfl; simp at hk
    have h1 : (seriesFile P maps kind w calls).values[k]? = some (calls[k]).2 := by
      simp [seriesFile, hk]
    have h2 : ((seriesFile P maps kind w calls).dataOffsets kind)[k]? = some ((k * total P (maps kind) : Nat) : Int) := by
      simp only [seriesFile, if_true]
      simp [hk]
    have h3 : (seriesFile P maps kind w calls).u kind = some ⟨w, calls.flatMap fun c => meshRows P (maps kind) w c.1⟩ := if_pos ⟨rfl, hne⟩
    rw [atStep, h1, h2, h3]
    simp only [Option.bind_eq_bind, Option.bind_some, Int.toNat_natCast]
    rw [vts_slice P (maps kind) w calls k hk]
    simp [hk]

/-- Two calls of a vector-valued function on two processes with 2 and 1 points. -/
example : ∃ f, writeAll (0 : Nat) 2 (fun _ => [fun r => 2 - r]) .point
      [(fun r => if r = 0 then [1, 2, 3, 4] else [5, 6], (0 : Nat)), (fun r => if r = 0 then [7, 8, 9, 10] else [11, 12], 1)] fresh = (f, true) ∧
    HoldsSteps f .point 3 [(0, [[1, 2], [3, 4], [5, 6]]), (1, [[7, 8], [9, 10], [11, 12]])] :=
  C109_series_partial (0 : Nat) 2 (by decide) (fun _ => [fun r => 2 - r]) .point 2 (by decide) (by decide)
    (by intro r hr; interval_cases r <;> decide)
    [(fun r => if r = 0 then [1, 2, 3, 4] else [5, 6], (0 : Nat)), (fun r => if r = 0 then [7, 8, 9, 10] else [11, 12], 1)]
    (by
      intro c hc r hr
      simp only [List.mem_cons, List.not_mem_nil, or_false] at hc
      rcases hc with rfl | rfl <;> interval_cases r <;> rfl)

theorem vts_mapM_none {β γ : Type} (f : β → Option γ) (l : List β) (x : β) (hx : x ∈ l) (h : f x = none) : l.mapM f = none := by
  induction l with
  | nil => simp at hx
  | cons y l ih =>
    rw [List.mapM_cons]
    rcases List.mem_cons.mp hx with rfl | hx
    · rw [h]; rfl
    · rw [ih hx]
      cases f y <;> rfl

/-- A process without points: the number of values per point is found by dividing by the number of points of the process, so nothing can be
written, whatever the data. -/
theorem C109_refuted_empty (fill : α) (P : Nat) (maps : Kind → List (Nat → Nat)) (kind : Kind) (r : Nat) (hr : r < P)
    (h0 : owned (maps kind) r = 0) (data : Nat → List α) (time : τ) (f : TFile α τ) :
    writeData fill P maps kind data time f = (f, false) := by
  have e : npoints (maps kind) r = 0 := by
    have : owned (maps kind) r < 2147483648 := by omega
    have h := accumulate_eq ((maps kind).map fun m : Nat → Nat => m r) this
    unfold npoints
    rw [h]
    exact congrArg Nat.cast h0
  have h1 : dataWidth (maps kind) data r = none := by
    unfold dataWidth
    simp [e]
  have h2 : (List.range P).mapM (dataWidth (maps kind) data) = none := by
    exact vts_mapM_none _ _ r (List.mem_range.mpr hr) h1
  unfold writeData
  rw [h2]

/-- Point data and cell data in one file: the second kind ends with an exception, after the number of steps has been increased in the file, so
that the file claims a step it does not have. -/
theorem C109_refuted_mixed (fill : α) (P : Nat) (maps : Kind → List (Nat → Nat)) (kind : Kind) (w : Nat)
    (hsz : total P (maps kind) < 2147483648) (hown : ∀ r, r < P → 0 < owned (maps kind) r)
    (data : Nat → List α) (hfit : ∀ r, r < P → (data r).length = owned (maps kind) r * w) (time : τ) (f : TFile α τ) (n : Nat)
    (hn : f.nsteps = some (n : Int)) (hu : f.u kind = none) :
    ∃ f', writeData fill P maps kind data time f = (f', false) ∧ f'.nsteps = some ((n : Int) + 1) ∧ f'.values = f.values ∧
      f'.dataOffsets kind = f.dataOffsets kind := by
  refine ⟨{ f with nsteps := some ((n : Int) + 1) }, ?_, rfl, rfl, rfl⟩
  unfold writeData
  rw [vts_width P (maps kind) w data hsz hown hfit]
  simp only [countStep, hn, hu, Option.map_none]

/-- One point and one cell: cell data after point data. -/
example : ∃ f : TFile Nat Nat, writeData 0 1 (fun _ => [fun _ => 1]) .point (fun _ => [4]) 0 fresh = (f, true) ∧ f.nsteps = some 1 ∧
    f.values = [0] ∧ f.u .cell = none := ⟨_, rfl, rfl, rfl, rfl⟩

/-- Data of another width at a later step: the data set takes the new width, and the second component of the first step is lost. -/
theorem C109_refuted_width :
    ∃ f : TFile Nat Nat, ∃ g : TFile Nat Nat,
      writeData 0 1 (fun _ => [fun _ => 1]) .point (fun _ => [4, 5]) 0 fresh = (f, true) ∧
      writeData 0 1 (fun _ => [fun _ => 1]) .point (fun _ => [6]) 1 f = (g, true) ∧
      atStep f .point 1 0 = some (0, [[4, 5]]) ∧ atStep g .point 1 0 = some (0, [[4]]) := ⟨_, _, rfl, rfl, rfl, rfl⟩

/-- More than 2³¹ points: the number of points of the mesh is added up in 32 bits, and no data can be written. -/
theorem C109_refuted_size (fill : α) (kind : Kind) (data : Nat → List α) (time : τ) (f : TFile α τ) :
    (writeData fill 2 (fun _ => [fun _ => 1073741824]) kind data time f).2 = false := by
  have hg : globalSize 2 [fun _ => 1073741824] < 0 := by decide +kernel
  have hu : ∀ w old, writeU fill 2 [fun _ => 1073741824] data w old = .error .range := by
    intro w old
    unfold writeU
    exact if_pos (Or.inl hg)
  unfold writeData
  split
  · rfl
  · split
    · rfl
    · beta_reduce
      simp only [hu]
      split <;> rfl

end Verif.Props
