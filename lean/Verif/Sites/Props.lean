import Verif.Sites.Model
import Mathlib.Tactic.Linarith
import Mathlib.Tactic.NormNum
import Mathlib.Tactic.Ring
import Mathlib.Tactic.FieldSimp
import Mathlib.Tactic.Positivity

namespace Verif.Sites.Props
open Verif.Sites Verif.Ffi Verif.CSky Verif.Sky

/-! ### C228: twilight from C -/

/-- The classes by name, code and the altitudes they stand for, in degrees (the table of classification.rs 16-22). -/
def classes : List (String × Int × (ℝ → Prop)) := [
  ("Day", 0, fun x => 0 < x),
  ("Civil", 1, fun x => -6 < x ∧ x ≤ 0),
  ("Nautical", 2, fun x => -12 < x ∧ x ≤ -6),
  ("Astronomical", 3, fun x => -18 < x ∧ x ≤ -12),
  ("Dark", 4, fun x => x ≤ -18)]

theorem classify_fin (x : ℝ) : classify (.fin x) = twilight (some x) := by
  simp [classify, twilight, Sites.gt, Sky.gt]

/-- C228: the code written for an altitude in degrees is that of the one class of the table it belongs to, and a caller who
looks the code up in the enumeration finds the name of that class. -/
theorem degrees_code (x : ℝ) (name : String) (c : Int) (p : ℝ → Prop) (h : (name, c, p) ∈ classes) :
    (twilightDeg (.fin x) true = (.ok, some c) ↔ p x) ∧ (p x → fromRaw twilightTable c = some name) := by
  have key : twilightDeg (.fin x) true = (.ok, some
      (if 0 < x then 0 else if -6 < x then 1 else if -12 < x then 2 else if -18 < x then 3 else 4)) := by
    simp only [twilightDeg, classify, Sites.gt, if_true, decide_eq_true_eq]
    split_ifs <;> rfl
  rw [key]
  simp only [classes, List.mem_cons, Prod.mk.injEq, List.not_mem_nil, or_false] at h
  rcases h with ⟨rfl, rfl, rfl⟩ | ⟨rfl, rfl, rfl⟩ | ⟨rfl, rfl, rfl⟩ | ⟨rfl, rfl, rfl⟩ | ⟨rfl, rfl, rfl⟩ <;>
    (refine ⟨?_, fun _ => by decide⟩
     simp only [Prod.mk.injEq, true_and, Option.some.injEq]
     split_ifs <;> constructor <;> intro hh <;> first | (exfalso; revert hh; decide) | rfl | linarith | (constructor <;> linarith) | (exfalso; linarith [hh.1, hh.2]))

/-- C228: every altitude has a code. -/
theorem degrees_total (x : ℝ) : ∃ r ∈ classes, twilightDeg (.fin x) true = (.ok, some r.2.1) ∧ r.2.2 x := by
  have key : ∀ r ∈ classes, r.2.2 x → ∃ r ∈ classes, twilightDeg (.fin x) true = (.ok, some r.2.1) ∧ r.2.2 x :=
    fun r hr hx => ⟨r, hr, (degrees_code x r.1 r.2.1 r.2.2 hr).1.2 hx, hx⟩
  by_cases h0 : 0 < x
  · exact key _ (by simp [classes]) (show ("Day", (0 : Int), fun x : ℝ => 0 < x).2.2 x from h0)
  by_cases h1 : -6 < x
  · exact key ("Civil", 1, fun x => -6 < x ∧ x ≤ 0) (by simp [classes]) ⟨h1, not_lt.1 h0⟩
  by_cases h2 : -12 < x
  · exact key ("Nautical", 2, fun x => -12 < x ∧ x ≤ -6) (by simp [classes]) ⟨h2, not_lt.1 h1⟩
  by_cases h3 : -18 < x
  · exact key ("Astronomical", 3, fun x => -18 < x ∧ x ≤ -12) (by simp [classes]) ⟨h3, not_lt.1 h2⟩
  · exact key ("Dark", 4, fun x => x ≤ -18) (by simp [classes]) (not_lt.1 h3)

/-- C228: an altitude in radians gets the code of the same altitude in degrees. -/
theorem radians_same (x : ℝ) (out : Bool) : twilightRad (.fin (x * Real.pi / 180)) out = twilightDeg (.fin x) out := by
  have : Sky.toDeg (x * Real.pi / 180) = x := by
    unfold Sky.toDeg; field_simp
  simp [twilightRad, twilightDeg, toDeg, this]

/-- C228: the boundaries in radians. -/
theorem radians_dark (r : ℝ) : twilightRad (.fin r) true = (.ok, some 4) ↔ r ≤ -(Real.pi / 10) := by
  have h := (degrees_code (r * 180 / Real.pi) "Dark" 4 (fun x => x ≤ -18) (by simp [classes])).1
  have e : r * 180 / Real.pi * Real.pi / 180 = r := by field_simp
  rw [← radians_same, e] at h
  rw [h, div_le_iff₀ Real.pi_pos]
  constructor <;> intro hh <;> linarith

/-- C228: the codes grow as the Sun goes down. -/
theorem codes_ordered {x y : ℝ} (h : x ≤ y) {c d : Int} (hx : twilightDeg (.fin x) true = (.ok, some c))
    (hy : twilightDeg (.fin y) true = (.ok, some d)) : d ≤ c := by
  simp only [twilightDeg, classify, Sites.gt, if_true, decide_eq_true_eq, Prod.mk.injEq, true_and, Option.some.injEq] at hx hy
  subst hx; subst hy
  split_ifs <;> first | decide | (exfalso; linarith)

/-- C228: the codes change at the thresholds of the night searches: the Sun is at or below the threshold of a night regime
exactly when the code is beyond that of the twilight named like it. -/
theorem search_thresholds (x : ℝ) {c : Int} (h : twilightDeg (.fin x) true = (.ok, some c)) :
    (x ≤ Regime.horizon.threshold ↔ 1 ≤ c) ∧ (x ≤ Regime.civil.threshold ↔ 2 ≤ c) ∧
      (x ≤ Regime.nautical.threshold ↔ 3 ≤ c) ∧ (x ≤ Regime.astronomical.threshold ↔ 4 ≤ c) := by
  simp only [twilightDeg, classify, Sites.gt, if_true, decide_eq_true_eq, Prod.mk.injEq, true_and, Option.some.injEq] at h
  subst h
  simp only [Regime.threshold]
  split_ifs <;> refine ⟨?_, ?_, ?_, ?_⟩ <;> constructor <;> intro hh <;>
    first | decide | linarith | (exfalso; revert hh; decide)

/-- C228: a null pointer is the only refusal, and nothing is written then. -/
theorem twilight_guard (a : Num) :
    twilightDeg a false = (.nullPointer, none) ∧ twilightRad a false = (.nullPointer, none) ∧
      (twilightDeg a true).1 = .ok ∧ (twilightRad a true).1 = .ok := ⟨rfl, rfl, rfl, rfl⟩

/-- C228 (finding): what is not an altitude is not refused: a NaN is reported as full darkness, an infinity as day or
darkness, each with the status of success. -/
theorem not_a_number_is_dark :
    twilightDeg .nan true = (.ok, some 4) ∧ twilightRad .nan true = (.ok, some 4) ∧
      twilightDeg .pinf true = (.ok, some 0) ∧ twilightDeg .ninf true = (.ok, some 4) := by
  simp [twilightDeg, twilightRad, toDeg, classify, Sites.gt, phaseCode]

example : twilightDeg (.fin (-7.5)) true = (.ok, some 2) :=
  (degrees_code (-7.5) "Nautical" 2 (fun x => -12 < x ∧ x ≤ -6) (by simp [classes])).1.2 (by norm_num)

/-! ### C229: the named sites -/

/-- The four sites as documented (src/catalogs/observatories.rs 104-181): name of the C function, longitude and latitude in
ten-thousandths of a degree, height in metres. -/
def published : List (String × Int × Int × Int) := [
  ("roque_de_los_muchachos", -178925, 287543, 2396),
  ("el_paranal", -704043, -246272, 2635),
  ("mauna_kea", -1554681, 198207, 4207),
  ("la_silla", -707346, -292584, 2400)]

/-- The C function by name. -/
noncomputable def function : String → Option (Bool → Status × Option (Geo ℝ))
  | "roque_de_los_muchachos" => some roqueC
  | "el_paranal" => some paranalC
  | "mauna_kea" => some maunaKeaC
  | "la_silla" => some laSillaC
  | _ => none

/-- C229: each of the four functions writes the documented place, and only through a pointer that is not null. -/
theorem site_written (name : String) (lon lat h : Int) (hm : (name, lon, lat, h) ∈ published) :
    ∃ f, function name = some f ∧ f false = (.nullPointer, none) ∧
      f true = (.ok, some ⟨(lon : ℝ) / 10000, (lat : ℝ) / 10000, (h : ℝ)⟩) := by
  simp only [published, List.mem_cons, Prod.mk.injEq, List.not_mem_nil, or_false] at hm
  rcases hm with ⟨rfl, rfl, rfl, rfl⟩ | ⟨rfl, rfl, rfl, rfl⟩ | ⟨rfl, rfl, rfl, rfl⟩ | ⟨rfl, rfl, rfl, rfl⟩
  · refine ⟨roqueC, rfl, rfl, ?_⟩
    simp only [roqueC, siteC, roque, if_true]; norm_num
  · refine ⟨paranalC, rfl, rfl, ?_⟩
    simp only [paranalC, siteC, paranal, if_true]; norm_num
  · refine ⟨maunaKeaC, rfl, rfl, ?_⟩
    simp only [maunaKeaC, siteC, maunaKea, if_true]; norm_num
  · refine ⟨laSillaC, rfl, rfl, ?_⟩
    simp only [laSillaC, siteC, laSilla, if_true]; norm_num

/-- C229: the places are on the Earth and pairwise different. -/
theorem sites_on_earth :
    (∀ r ∈ published, |r.2.1| ≤ 1800000 ∧ |r.2.2.1| ≤ 900000 ∧ 0 ≤ r.2.2.2 ∧ r.2.2.2 ≤ 8849) ∧
      (published.map (·.2)).Nodup ∧ (published.map (·.1)).Nodup := by decide +kernel

/-- The atmosphere profile that is documented to belong to a site (src/atmosphere/profile.rs 70-109). -/
noncomputable def profileOf : List (Observatory × Atmosphere.Profile) :=
  [(roque, Atmosphere.roque), (paranal, Atmosphere.elParanal), (maunaKea, Atmosphere.maunaKea),
   (laSilla, Atmosphere.laSilla)]

/-- A site record and an atmosphere profile tell of the same place and air. -/
def Agree (o : Observatory) (p : Atmosphere.Profile) : Prop :=
  p.pressure = o.pressure ∧ p.altitude * 1000 = o.geodetic.height

/-- C229 (finding): of the four sites, only the record of Paranal agrees with the atmosphere profile "calibrated to this
site". The pressure of Roque de los Muchachos and of La Silla is 744 hPa in the one and 770 hPa in the other; Mauna Kea has 614 and
615 hPa and stands at 4207 m and 4205 m. -/
theorem profile_disagrees (q : Observatory × Atmosphere.Profile) (h : q ∈ profileOf) :
    Agree q.1 q.2 ↔ q.1.name = "El Paranal Observatory" := by
  simp only [profileOf, List.mem_cons, List.not_mem_nil, or_false] at h
  rcases h with rfl | rfl | rfl | rfl
  · simp [Agree, roque, Atmosphere.roque]
  · simp [Agree, paranal, Atmosphere.elParanal]; norm_num
  · simp [Agree, maunaKea, Atmosphere.maunaKea]
  · simp [Agree, laSilla, Atmosphere.laSilla]

/-- C229 (finding): so a client who takes the pressure of the site record for the Rayleigh depth gets, at every wavelength,
another depth than from the profile of the same site: for Roque de los Muchachos and La Silla that of the profile is larger by
770/744. -/
theorem rayleigh_disagrees (nm : ℝ) :
    Atmosphere.rayleigh nm Atmosphere.roque.pressure Atmosphere.roque.altitude Atmosphere.roque.scale
        = 770 / 744 * Atmosphere.rayleigh nm roque.pressure (roque.geodetic.height / 1000) Atmosphere.roque.scale ∧
      Atmosphere.rayleigh nm Atmosphere.laSilla.pressure Atmosphere.laSilla.altitude Atmosphere.laSilla.scale
        = 770 / 744 * Atmosphere.rayleigh nm laSilla.pressure (laSilla.geodetic.height / 1000) Atmosphere.laSilla.scale := by
  have e1 : (2396 : ℝ) / 1000 = 2.396 := by norm_num
  have e2 : (2400 : ℝ) / 1000 = 2.400 := by norm_num
  simp only [Atmosphere.rayleigh, Atmosphere.roque, Atmosphere.laSilla, roque, laSilla, e1, e2]
  constructor <;> ring

/-- C229 (finding): the pressure of Mauna Kea is documented as that of the standard atmosphere at its height. The library's
own standard atmosphere gives less than 601 hPa there, not 614. -/
theorem mauna_kea_pressure : Bodies.Isa.pressure maunaKea.geodetic.height < 60100 ∧ maunaKea.pressure * 100 = 61400 := by
  refine ⟨?_, by norm_num [maunaKea]⟩
  have hpos : (0 : ℝ) < 1 + Bodies.Isa.lapse * 4207 / Bodies.Isa.T0 := by norm_num [Bodies.Isa.lapse, Bodies.Isa.T0]
  have hlt : (1 : ℝ) + Bodies.Isa.lapse * 4207 / Bodies.Isa.T0 < 0.90511 := by norm_num [Bodies.Isa.lapse, Bodies.Isa.T0]
  have hexp : (21 / 4 : ℝ) ≤ Bodies.Isa.expTrop := by
    norm_num [Bodies.Isa.expTrop, Bodies.Isa.G0, Bodies.Isa.M, Bodies.Isa.R, Bodies.Isa.lapse]
  have h1 : (1 + Bodies.Isa.lapse * 4207 / Bodies.Isa.T0 : ℝ) ^ Bodies.Isa.expTrop ≤ (0.90511 : ℝ) ^ (21 / 4 : ℝ) :=
    (Real.rpow_le_rpow_of_exponent_ge hpos (by linarith) hexp).trans
      (Real.rpow_le_rpow hpos.le hlt.le (by norm_num))
  have h2 : (0.90511 : ℝ) ^ (21 / 4 : ℝ) ≤ 0.593 := by
    have e : (0.90511 : ℝ) ^ (21 / 4 : ℝ) = ((0.90511 : ℝ) ^ (21 : ℕ)) ^ (1 / 4 : ℝ) := by
      rw [← Real.rpow_natCast, ← Real.rpow_mul (by norm_num)]; norm_num
    have e' : (0.593 : ℝ) = ((0.593 : ℝ) ^ (4 : ℕ)) ^ (1 / 4 : ℝ) := by
      rw [← Real.rpow_natCast, ← Real.rpow_mul (by norm_num)]; norm_num
    rw [e, e']
    exact Real.rpow_le_rpow (by positivity) (by norm_num) (by norm_num)
  have h3 : Bodies.Isa.pressure maunaKea.geodetic.height
      = Bodies.Isa.P0 * (1 + Bodies.Isa.lapse * 4207 / Bodies.Isa.T0) ^ Bodies.Isa.expTrop := by
    have : (maunaKea.geodetic.height : ℝ) = 4207 := rfl
    rw [this, Bodies.Isa.pressure, if_pos (by norm_num [Bodies.Isa.hTropo])]
  rw [h3, Bodies.Isa.P0]
  linarith

/-- C229: a place made from numbers holds these numbers, and what is handed to the conversion to Cartesian coordinates is the
place; the result is labelled with the codes of the Earth-fixed frame, the Earth's centre and metres. -/
theorem place_to_ecef (conv : Geo Num → Num × Num × Num) (lon lat h : Num) :
    ∃ g, geodeticNew lon lat h true = (.ok, some g) ∧ g = ⟨lon, lat, h⟩ ∧
      ∃ p, toEcef conv g true = (.ok, some p) ∧ (p.x, p.y, p.z) = conv ⟨lon, lat, h⟩ ∧
        fromRaw frameTable p.frame = some "ECEF" ∧ fromRaw centerTable p.center = some "Geocentric" ∧
        fromRaw lengthUnitTable p.unit = some "Meter" :=
  ⟨_, rfl, rfl, _, rfl, rfl, by dsimp only; decide +kernel, by dsimp only; decide +kernel, by dsimp only; decide +kernel⟩

/-- C229: null pointers. -/
theorem place_guard (conv : Geo Num → Num × Num × Num) (lon lat h : Num) (g : Geo Num) :
    geodeticNew lon lat h false = (.nullPointer, none) ∧ toEcef conv g false = (.nullPointer, none) := ⟨rfl, rfl⟩

/-- C229 (finding): no place is refused: a latitude of 200 degrees and a height that is no number are accepted. -/
theorem any_place_accepted (lon lat h : Num) : (geodeticNew lon lat h true).1 = .ok := rfl

example : (geodeticNew (.fin 0) (.fin 200) .nan true).1 = .ok := rfl

end Verif.Sites.Props
