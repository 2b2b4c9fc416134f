import Verif.Search.Model
import Mathlib.Data.Rat.Defs
import Mathlib.Algebra.Order.Ring.Rat
import Mathlib.Topology.Instances.Rat
import Mathlib.Topology.Order.OrderClosed
import Mathlib.Tactic.Linarith
import Mathlib.Tactic.NormNum

/-!
C75, C76: a signal on which `brent_f64` gives up.
-/
namespace Verif.Search.Props
open Verif.Search

/-- The signal of the example is constant on short pieces and linear between them: start and end of a piece in units of `1e-14` days,
value. -/
def pieces : List (ℤ × ℤ × ℚ) := [
  (-1, 1, -1),
  (347222222221, 347222222224, -1 / 10000),
  (347256940971, 347256940974, -1 / 1000000),
  (347257291665, 347257291668, -3 / 10000000),
  (347257441963, 347257441966, -7 / 50000000),
  (347257573473, 347257573476, -21 / 500000000),
  (347257629834, 347257629837, -21 / 1000000000),
  (347257686196, 347257686199, -63 / 10000000000),
  (347257736196, 347257736199, -19 / 10000000000),
  (347257786196, 347257786199, -19 / 100000000),
  (348976532029, 348976532032, -19 / 1000000000),
  (349167313007, 349167313010, -43 / 5000000000),
  (349324994194, 349324994197, -13 / 5000000000),
  (349393302412, 349393302415, -13 / 10000000000),
  (349461602890, 349461602893, -39 / 100000000000),
  (349490872761, 349490872764, -39 / 1000000000),
  (350339190793, 350339190796, -39 / 5000000000),
  (350550846989, 350550846992, -7 / 2000000000),
  (350722932862, 350722932865, -1 / 1000000000),
  (350791724902, 350791724905, -9 / 20000000000),
  (350847997366, 350847997369, -9 / 200000000),
  (351265437944, 351265437947, -9 / 1000000000),
  (351369589785, 351369589788, -27 / 10000000000),
  (351414187031, 351414187034, -7 / 5000000000),
  (351462193793, 351462193796, -21 / 50000000000),
  (351482762927, 351482762930, -21 / 500000000),
  (351688340812, 351688340815, -21 / 2500000000),
  (351739632699, 351739632702, -1 / 400000000),
  (351761347518, 351761347521, -13 / 10000000000),
  (351784861682, 351784861685, -39 / 100000000000),
  (351794936650, 351794936653, -39 / 1000000000),
  (351896180178, 351896180181, -39 / 5000000000),
  (351921440540, 351921440543, -7 / 2000000000),
  (351941978334, 351941978337, -1 / 1000000000),
  (351950188402, 351950188405, -9 / 20000000000),
  (351956904306, 351956904309, -9 / 200000000),
  (352006724250, 352006724253, -9 / 1000000000),
  (352019154376, 352019154379, -27 / 10000000000),
  (352024476887, 352024476890, -7 / 5000000000),
  (352030206312, 352030206315, -21 / 50000000000),
  (352032661160, 352032661163, -21 / 500000000),
  (352057196098, 352057196101, -21 / 2500000000),
  (352063317589, 352063317592, -1 / 400000000),
  (352065909170, 352065909173, -13 / 10000000000),
  (352068715496, 352068715499, -39 / 100000000000),
  (352069917905, 352069917908, -39 / 1000000000),
  (352082000935, 352082000938, -39 / 5000000000),
  (352085015663, 352085015666, -7 / 2000000000),
  (352087466770, 352087466773, -1 / 1000000000),
  (352088446611, 352088446614, -9 / 20000000000),
  (352089248128, 352089248131, -9 / 200000000),
  (352095193949, 352095193952, -9 / 1000000000),
  (352096677437, 352096677440, -27 / 10000000000),
  (352097312659, 352097312662, -7 / 5000000000),
  (352097996444, 352097996447, -21 / 50000000000),
  (352098289420, 352098289423, -21 / 500000000),
  (352101217572, 352101217575, -21 / 2500000000),
  (352101948149, 352101948152, -21 / 5000000000),
  (352102677849, 352102677852, -13 / 10000000000),
  (352103004720, 352103004723, -39 / 100000000000),
  (352103144772, 352103144775, -39 / 1000000000),
  (352104584812, 352104584815, -39 / 5000000000),
  (352104944103, 352104944106, -39 / 10000000000),
  (352105302964, 352105302967, -3 / 2500000000),
  (352105462342, 352105462345, -9 / 25000000000),
  (352105530630, 352105530633, -9 / 250000000),
  (352106238838, 352106238841, -9 / 1250000000),
  (352106415537, 352106415540, -9 / 2500000000),
  (352106592024, 352106592027, -11 / 10000000000),
  (352106669622, 352106669625, -49 / 100000000000),
  (352106731939, 352106731942, -49 / 1000000000),
  (352107080096, 352107080099, -11 / 500000000),
  (352107362512, 352107362515, -11 / 2500000000),
  (352107432939, 352107432942, -11 / 5000000000),
  (352107503316, 352107503319, -11 / 25000000000),
  (352107553316, 352107553319, -11 / 250000000),
  (352107723328, 352107723331, -11 / 500000000),
  (352107892495, 352107892498, -33 / 5000000000),
  (352107964760, 352107964763, -33 / 10000000000),
  (352108036935, 352108036938, -33 / 100000000000),
  (352108086935, 352108086938, -33 / 1000000000),
  (352108843191, 352108843194, -33 / 10000000),
  (352115427119, 352115427122, 9 / 5000000000),
  (352115477119, 352115477122, 3 / 500000000),
  (352115549738, 352115549741, 1 / 50000000),
  (352115718244, 352115718247, 33 / 500000000),
  (352116405750, 352116405753, 33 / 100000000),
  (352124724565, 352124724568, 11 / 2500000),
  (352141895813, 352141895816, 49 / 10000000),
  (352177059688, 352177059691, 9 / 2500000),
  (352248588745, 352248588748, 39 / 10000000),
  (352394032718, 352394032721, 21 / 5000000),
  (352689776016, 352689776019, 9 / 2000000),
  (353290303904, 353290303907, 39 / 10000000),
  (354510689902, 354510689905, 21 / 5000000),
  (356988718644, 356988718647, 9 / 2000000),
  (362020532983, 362020532986, 39 / 10000000),
  (372246129315, 372246129318, 21 / 5000000),
  (393009495703, 393009495706, 9 / 2000000),
  (435170994040, 435170994043, 39 / 10000000),
  (520851115319, 520851115322, 19 / 1000000),
  (694444444443, 694444444446, 1)]

/-- The corners. -/
def corners : List (ℚ × ℚ) := pieces.flatMap fun p => [(p.1 / 10 ^ 14, p.2.2), (p.2.1 / 10 ^ 14, p.2.2)]

/-- The polygon through given corners. -/
def polygon : List (ℚ × ℚ) → ℚ → ℚ
  | [], _ => 0
  | [p], _ => p.2
  | p :: q :: t, x => if x ≤ q.1 then p.2 + (q.2 - p.2) * ((x - p.1) / (q.1 - p.1)) else polygon (q :: t) x

/-- The signal. -/
def stubborn : ℚ → ℚ := polygon corners

/-- Between the ends of a cell of ten minutes the signal goes from one side of the threshold to the other. -/
theorem stubborn_ends : stubborn 0 = -1 ∧ stubborn (1 / 144) = 1 := by decide +kernel

/-- With the default tolerances, on a cell of ten minutes, the 100 iterations of `brent_f64` (root_finding as modelled in `Search/Model.lean`) end without an answer. -/
theorem stubborn_gives_up : brentF64 (0 : ℚ) (1 / 144) (-1) 1 stubborn (1 / 10 ^ 9) (1 / 10 ^ 10) = none := by
  decide +kernel

theorem polygon_continuous : ∀ l : List (ℚ × ℚ), l.Pairwise (fun p q => p.1 < q.1) → Continuous (polygon l)
  | [], _ => by
    have : polygon [] = fun _ => 0 := by funext x; rfl
    rw [this]; exact continuous_const
  | [p], _ => by
    have : polygon [p] = fun _ => p.2 := by funext x; rfl
    rw [this]; exact continuous_const
  | p :: q :: t, h => by
    have hpq : p.1 < q.1 := (List.pairwise_cons.1 h).1 q List.mem_cons_self
    have ih := polygon_continuous (q :: t) (List.pairwise_cons.1 h).2
    have e : polygon (p :: q :: t) =
        fun x => if x ≤ q.1 then p.2 + (q.2 - p.2) * ((x - p.1) / (q.1 - p.1)) else polygon (q :: t) x := by
      funext x; rfl
    have hq : polygon (q :: t) q.1 = q.2 := by
      cases t with
      | nil => rfl
      | cons r t =>
        have hqr : q.1 < r.1 := (List.pairwise_cons.1 (List.pairwise_cons.1 h).2).1 r List.mem_cons_self
        show (if q.1 ≤ r.1 then _ else _) = _
        rw [if_pos hqr.le, sub_self, zero_div, mul_zero, add_zero]
    rw [e]
    refine Continuous.if_le (by fun_prop) ih continuous_id continuous_const ?_
    rintro x rfl
    rw [hq, div_self (sub_ne_zero.2 hpq.ne')]
    ring

theorem stubborn_continuous : Continuous stubborn := polygon_continuous _ (by decide +kernel)

theorem stubborn_scan (n : ℕ) : scanLabelledCrossings (n + 2) 0 (1 / 144) (1 / 144) stubborn 0 (1 / 10 ^ 9) (1 / 10 ^ 10) = some [] := by
  have h1 : max (1 / 144 : ℚ) minSegmentDays = 1 / 144 := max_eq_left (by unfold minSegmentDays; norm_num)
  have h2 : max (1 / 10 ^ 9 : ℚ) machineEps = 1 / 10 ^ 9 := max_eq_left (by unfold machineEps; norm_num)
  have h3 : max (1 / 10 ^ 10 : ℚ) polyZeroTol = 1 / 10 ^ 10 := max_eq_left (by unfold polyZeroTol; norm_num)
  have h4 : Verif.Event.nextTime (1 / 144 : ℚ) (1 / 144) 0 = 1 / 144 := by unfold Verif.Event.nextTime; norm_num
  unfold scanLabelledCrossings
  rw [if_neg (by norm_num)]
  simp only [sub_zero, h1, h2, h3]
  rw [stubborn_ends.1, scanLoop, if_pos (by norm_num), h4]
  simp only [stubborn_ends.2]
  rw [scanLoop, if_neg (lt_irrefl _)]
  have s1 : sampleEvents stubborn 0 (1 / 144) (1 / 144) (1 / 10 ^ 10) 0 (-1) = [] := if_neg (by norm_num)
  have s2 : sampleEvents stubborn 0 (1 / 144) (1 / 144) (1 / 10 ^ 10) (1 / 144) 1 = [] := if_neg (by norm_num)
  have s3 : refinedEvents stubborn 0 (1 / 144) (1 / 10 ^ 9) (1 / 10 ^ 10) 0 (1 / 144) (-1) 1 = [] := by
    unfold refinedEvents
    rw [stubborn_gives_up]
    split <;> rfl
  simp only [s1, s2, s3, Option.map_some, List.append_nil]
  simp [Verif.Event.sortAndDedup, Verif.Event.dedupBy]

/-- **C75 (finding).** A crossing between two samples can be lost: there is a continuous signal, below the threshold at the start of a window of ten minutes and
above it at its end, for which the scan with the usual tolerances (1e-9 days, 1e-10) and a step of ten minutes reports nothing, because `brent_f64` gives up after 100 iterations. -/
theorem scan_loses_crossing : ∃ signal : ℚ → ℚ, Continuous signal ∧ signal 0 < 0 ∧ 0 < signal (1 / 144) ∧
    ∀ n, scanLabelledCrossings (n + 2) 0 (1 / 144) (1 / 144) signal 0 (1 / 10 ^ 9) (1 / 10 ^ 10) = some [] :=
  ⟨stubborn, stubborn_continuous, by rw [stubborn_ends.1]; norm_num, by rw [stubborn_ends.2]; norm_num, stubborn_scan⟩

/-- **C76 (finding).** The search with the public configuration can lose it too: with a fit that fails, the window is scanned and a signal that starts below and
ends above the threshold is reported as having no crossing at all. -/
theorem search_loses_crossing : ∃ signal : ℚ → ℚ, Continuous signal ∧ signal 0 < 0 ∧ 0 < signal (1 / 144) ∧
    ∀ n, findLabelledCrossings (fun _ _ _ _ _ => none) (n + 2) 0 (1 / 144) (1 / 144) signal 0 (Config.ofPublic (1 / 10 ^ 9)) =
      some ([], false) := by
  refine ⟨stubborn, stubborn_continuous, by rw [stubborn_ends.1]; norm_num, by rw [stubborn_ends.2]; norm_num, fun n => ?_⟩
  have h4 : Verif.Event.nextTime (1 / 144 : ℚ) (1 / 2) 0 = 1 / 144 := by unfold Verif.Event.nextTime; norm_num
  have seg : segmentCrossings (fun _ _ _ _ _ => none) (n + 2) stubborn 0 (Config.ofPublic (1 / 10 ^ 9)) (1 / 144) 0 (1 / 144) 2 0
      (1 / 144) = some [] := by
    rw [segmentCrossings, if_neg (by norm_num), if_neg (by unfold minSegmentDays; norm_num)]
    exact stubborn_scan n
  unfold findLabelledCrossings
  rw [if_neg (by norm_num)]
  simp only [Config.ofPublic, Option.getD_none, Bool.false_eq_true, if_false]
  rw [segmentsLoop, if_pos (by norm_num)]
  simp only [h4]
  have seg' := seg
  simp only [Config.ofPublic] at seg'
  rw [seg', Option.bind_some, segmentsLoop, if_neg (lt_irrefl _), stubborn_ends.1]
  simp [Verif.Event.sortAndDedup, Verif.Event.dedupBy]

end Verif.Search.Props
