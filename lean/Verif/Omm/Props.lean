import Verif.Omm.Write

/-!
Designators, conversion from and to element sets, the JSON record, the builder, malformed fields and zones; examples.
-/
namespace Verif.Omm.Props
open Verif.Text Verif.Omm
open Verif.Kvn.Props (Carried Near Assigns Silent Says)

variable {T : Type}

/-! ### Designators -/

/-- The year of a two-digit launch year. -/
def Century (y Y : Nat) : Prop := (57 ≤ y ∧ y < 100 ∧ Y = 1900 + y) ∨ (y < 57 ∧ Y = 2000 + y)

theorem digit_fin {c : Char} (h : c.isDigit = true) : ∃ i : Fin 10, c = Char.ofNat (48 + i) := by
  have h1 := isDigit_range.mp h
  refine ⟨⟨c.toNat - 48, by omega⟩, ?_⟩
  show c = Char.ofNat (48 + (c.toNat - 48))
  rw [show 48 + (c.toNat - 48) = c.toNat by omega, Char.ofNat_toNat]

theorem fin_toNat : ∀ i : Fin 10, (Char.ofNat (48 + i)).toNat = 48 + i := by decide

/-- All hundred two-digit years. -/
theorem two_years : ∀ i j : Fin 10, parseUInt (2 ^ 31 - 1) [Char.ofNat (48 + i), Char.ofNat (48 + j)] = some (10 * (i : Nat) + (j : Nat)) ∧
    (padLeft '0' 4 (natStr (if 57 ≤ 10 * (i : Nat) + j then 1900 + (10 * i + j) else 2000 + (10 * i + j)))).drop 2 =
      [Char.ofNat (48 + i), Char.ofNat (48 + j)] ∧
    (padLeft '0' 4 (natStr (if 57 ≤ 10 * (i : Nat) + j then 1900 + (10 * i + j) else 2000 + (10 * i + j)))).length = 4 ∧
    (padLeft '0' 4 (natStr (if 57 ≤ 10 * (i : Nat) + j then 1900 + (10 * i + j) else 2000 + (10 * i + j)))).all Char.isDigit = true := by
  decide +kernel

theorem digit_not_dash {s : Str} (h : s.all Char.isDigit = true) : '-' ∉ s := by
  intro hc
  exact absurd (List.all_eq_true.mp h _ hc) (by decide)

theorem contract_split {y rest : Str} (h1 : y.length = 4) (h2 : y.all Char.isDigit = true) (ht : Tight (y ++ '-' :: rest)) :
    contract (y ++ '-' :: rest) = y.drop 2 ++ rest := by
  unfold contract
  rw [trim_tight ht]
  dsimp only
  rw [find1_append (digit_not_dash h2)]
  simp [h1, h2]

theorem ascii_all {s : Str} (h : isAscii s) : s.all (fun c => c.toNat < 128) = true := by
  rw [List.all_eq_true]
  intro c hc
  simpa using h c hc

theorem tight_digit_head {y s : Str} (h0 : y ≠ []) (h1 : y.all Char.isDigit = true) (h2 : Tight s) : Tight (y ++ '-' :: s) := by
  constructor
  · intro c hc
    obtain ⟨a, t, rfl⟩ := List.exists_cons_of_ne_nil h0
    simp at hc
    subst hc
    exact isDigit_not_ws (List.all_eq_true.mp h1 _ (by simp))
  · intro c hc
    rw [List.getLast?_append_of_ne_nil _ (by simp)] at hc
    by_cases h : s = []
    · subst h
      simp at hc
      subst hc
      decide
    · rw [List.getLast?_cons_of_ne_nil h] at hc
      exact h2.2 c hc

/-- The expanded form of a launch year and the rest of a designator. -/
theorem expand_form {a b : Char} {rest : Str} (ha : a.isDigit = true) (hb : b.isDigit = true) (hr : isAscii rest)
    (hl : 3 ≤ rest.length) (ht : Tight (a :: b :: rest)) :
    ∃ y : Str, expand (a :: b :: rest) = y ++ '-' :: rest ∧ y.length = 4 ∧ y.all Char.isDigit = true ∧ y.drop 2 = [a, b] ∧
      y = padLeft '0' 4 (natStr (if 57 ≤ 10 * (a.toNat - 48) + (b.toNat - 48) then 1900 + (10 * (a.toNat - 48) + (b.toNat - 48))
        else 2000 + (10 * (a.toNat - 48) + (b.toNat - 48)))) := by
  have ra := isDigit_range.mp ha
  have rb := isDigit_range.mp hb
  have hasc : isAscii (a :: b :: rest) := by
    intro c hc
    simp at hc
    rcases hc with rfl | rfl | hc
    · omega
    · omega
    · exact hr c hc
  obtain ⟨i, hi⟩ := digit_fin ha
  obtain ⟨j, hj⟩ := digit_fin hb
  have ei : a.toNat - 48 = i := by
    have := fin_toNat i
    rw [← hi] at this
    omega
  have ej : b.toNat - 48 = j := by
    have := fin_toNat j
    rw [← hj] at this
    omega
  rw [ei, ej]
  obtain ⟨k1, k2, k3, k4⟩ := two_years i j
  rw [← hi, ← hj] at k1 k2
  refine ⟨_, ?_, k3, k4, k2, rfl⟩
  unfold expand
  rw [trim_tight ht]
  dsimp only
  rw [if_neg, if_neg]
  · simp only [List.take_succ_cons, List.take_zero, k1, Option.getD_some, List.drop_succ_cons, List.drop_zero]
    congr 2
    exact List.take_append_drop 3 rest
  · simp [ha, hb]
  · rw [blen_ascii hasc, ascii_all hasc]
    simp
    omega

theorem trim_is_tight (s : Str) : Tight (trim s) := by
  have hd : ∀ (l : Str) (c : Char), (l.dropWhile isWs).head? = some c → isWs c = false := by
    intro l c hc
    have := List.head?_dropWhile_not isWs l
    rw [hc] at this
    simpa using this
  unfold trim trimEnd trimStart
  constructor
  · intro c hc
    rw [List.head?_reverse] at hc
    by_cases h : (s.dropWhile isWs) = []
    · rw [h] at hc
      simp at hc
    · apply hd s c
      have h1 : ((s.dropWhile isWs).reverse.dropWhile isWs).reverse <+: s.dropWhile isWs := by
        have := List.dropWhile_suffix isWs (l := (s.dropWhile isWs).reverse)
        simpa using List.reverse_prefix.mpr this
      obtain ⟨t, ht⟩ := h1
      rw [← List.head?_reverse] at hc
      rw [← ht, List.head?_append, hc]
      rfl
  · intro c hc
    rw [List.getLast?_reverse] at hc
    exact hd _ c hc

/-- Expanding a designator and contracting it gives it back without surrounding blanks, for ASCII designators. -/
theorem contract_expand {s : Str} (h : isAscii s) : contract (expand s) = trim s := by
  have hat : isAscii (trim s) := by
    intro c hc
    exact h c (by
      unfold trim trimEnd at hc
      have := List.mem_reverse.mp hc
      have := (List.dropWhile_sublist _).mem this
      have := List.mem_reverse.mp this
      exact (List.dropWhile_sublist _).mem this)
  have htt : Tight (trim s) := trim_is_tight s
  by_cases hd : 5 ≤ (trim s).length ∧ ((trim s).take 2).all Char.isDigit = true
  · obtain ⟨h5, hdig⟩ := hd
    have hee : expand s = expand (trim s) := by
      unfold expand
      rw [trim_tight htt]
    rw [hee]
    generalize trim s = u at *
    obtain ⟨a, b, rest, rfl⟩ : ∃ a b rest, u = a :: b :: rest := by
      match u, h5 with
      | a :: b :: rest, _ => exact ⟨a, b, rest, rfl⟩
    simp at hdig
    obtain ⟨y, e1, e2, e3, e4, -⟩ := expand_form hdig.1 hdig.2 (fun c hc => hat c (by simp [hc])) (by simpa using h5) htt
    rw [e1, contract_split e2 e3 ?_, e4]
    · rfl
    · rw [← List.nil_append (y ++ _)]
      constructor
      · intro c hc
        obtain ⟨x, t, rfl⟩ := List.exists_cons_of_ne_nil (l := y) (by rintro rfl; simp at e2)
        simp at hc
        subst hc
        exact isDigit_not_ws (List.all_eq_true.mp e3 _ (by simp))
      · intro c hc
        have hr : rest ≠ [] := by rintro rfl; simp at h5
        rw [List.nil_append, List.getLast?_append_of_ne_nil _ (by simp), List.getLast?_cons_of_ne_nil hr] at hc
        exact htt.2 c (by rw [List.getLast?_cons_of_ne_nil (by simp), List.getLast?_cons_of_ne_nil hr]; exact hc)
  · have hex : expand s = trim s := by
      unfold expand
      dsimp only
      by_cases h5 : 5 ≤ (trim s).length
      · have : ¬ ((trim s).take 2).all Char.isDigit = true := fun k => hd ⟨h5, k⟩
        split
        · rfl
        · rfl
      · rw [if_pos]
        left
        rw [blen_ascii hat]
        omega
    rw [hex]
    unfold contract
    rw [trim_tight htt]
    dsimp only
    rcases hf : find1 '-' (trim s) with _ | ⟨y, rest⟩
    · rfl
    · dsimp only
      rw [if_neg]
      rintro ⟨y4, yd⟩
      apply hd
      rw [(Kvn.Props.find1_some hf).1]
      refine ⟨by simp; omega, ?_⟩
      rw [List.take_append_of_le_length (by omega)]
      rw [List.all_eq_true] at yd ⊢
      exact fun c hc => yd c (List.mem_of_mem_take hc)


/-- Two digits of a launch year with the rest of the designator become the full year, a hyphen and the rest: years from 57 on
belong to the twentieth century. -/
theorem expand_year {y Y : Nat} {rest : Str} (hy : Century y Y) (hr : isAscii rest) (hl : 3 ≤ rest.length)
    (ht : Tight rest) : expand (padLeft '0' 2 (natStr y) ++ rest) = natStr Y ++ '-' :: rest := by
  have hy100 : y < 100 := by rcases hy with h | h <;> omega
  have two : ∀ y : Fin 100, ∃ a b : Char, padLeft '0' 2 (natStr y) = [a, b] ∧ a.isDigit = true ∧ b.isDigit = true ∧
      10 * (a.toNat - 48) + (b.toNat - 48) = y := by
    intro y
    refine ⟨Char.ofNat (48 + y / 10), Char.ofNat (48 + y % 10), ?_⟩
    revert y
    decide +kernel
  obtain ⟨a, b, e1, da, db, e2⟩ := two ⟨y, hy100⟩
  dsimp only at e1 e2
  rw [e1]
  have hne : rest ≠ [] := by rintro rfl; simp at hl
  have htt : Tight (a :: b :: rest) := by
    constructor
    · intro c hc
      simp at hc
      subst hc
      exact isDigit_not_ws da
    · intro c hc
      rw [List.getLast?_cons_of_ne_nil (by simp), List.getLast?_cons_of_ne_nil hne] at hc
      exact ht.2 c hc
  obtain ⟨w, k1, -, -, -, k5⟩ := expand_form da db hr hl htt
  show expand (a :: b :: rest) = _
  rw [k1, k5, e2]
  have pad : ∀ n : Nat, 1000 ≤ n → padLeft '0' 4 (natStr n) = natStr n := by
    intro n hn
    unfold padLeft
    have := natStr_length_gt 3 n (by omega)
    rw [show 4 - (natStr n).length = 0 by omega]
    rfl
  rcases hy with ⟨h1, h2, rfl⟩ | ⟨h1, rfl⟩
  · rw [if_pos h1, pad _ (by omega)]
  · rw [if_neg (by omega), pad _ (by omega)]

/-- A full year between 1957 and 2056 survives contraction and expansion. -/
theorem expand_contract {Y : Nat} {rest : Str} (h1 : 1957 ≤ Y) (h2 : Y ≤ 2056) (hr : isAscii rest) (hl : 3 ≤ rest.length)
    (ht : Tight rest) : expand (contract (natStr Y ++ '-' :: rest)) = natStr Y ++ '-' :: rest := by
  obtain ⟨d1, d2, -⟩ := natStr_digits Y
  have l4 : (natStr Y).length = 4 := by
    have a := natStr_length_le 3 Y (by omega)
    have b := natStr_length_gt 3 Y (by omega)
    omega
  rw [contract_split l4 d1 (tight_digit_head d2 d1 ht)]
  have key : ∀ k : Fin 100, (natStr (1957 + k)).drop 2 = padLeft '0' 2 (natStr ((1957 + k) % 100)) := by decide +kernel
  have := key ⟨Y - 1957, by omega⟩
  dsimp only at this
  rw [show 1957 + (Y - 1957) = Y by omega] at this
  rw [this]
  apply expand_year _ hr hl ht
  unfold Century
  omega

example : expand "98067A  ".toList = "1998-067A".toList ∧ contract "1998-067A".toList = "98067A".toList := by decide +kernel

/-! ### Element sets -/

/-- An element set turned into a message and back is the same, with the designator trimmed and a name given. -/
theorem tle_round_trip (t : Card T) (h : isAscii t.intl) :
    toTle (fromTle t) = { t with intl := trim t.intl, name := some (t.name.getD ("NORAD ".toList ++ natStr t.norad)) } := by
  unfold toTle fromTle
  rw [contract_expand h]

/-- A message turned into an element set and back loses only the ephemeris type. -/
theorem omm_round_trip (o : Omm T) {Y : Nat} {rest : Str} (h0 : o.ident = natStr Y ++ '-' :: rest) (h1 : 1957 ≤ Y) (h2 : Y ≤ 2056)
    (hr : isAscii rest) (hl : 3 ≤ rest.length) (ht : Tight rest) : fromTle (toTle o) = { o with ephemeris := 0 } := by
  unfold toTle fromTle
  simp only [Option.getD_some]
  rw [h0, expand_contract h1 h2 hr hl ht, ← h0]

/-! ### JSON record -/

/-- The record accepted by the JSON reader: the theory, the epoch text and the classification letter decide. -/
theorem json_reads (env : Env T) (d : Dto) (o : Omm T) : ofDto env d = .ok o ↔
    (∀ t, d.theory = some t → t.map lower = "sgp4".toList) ∧ Instant env d.epoch o.epoch ∧
    ((∃ c t, d.cls = c :: t ∧ Letter c o.cls) ∨ (d.cls = [] ∧ o.cls = .unclassified)) ∧
    o.name = d.name ∧ o.ident = d.ident ∧ o.meanMotion = d.meanMotion ∧ o.ecc = d.ecc ∧ o.inc = d.inc ∧ o.node = d.node ∧
    o.peri = d.peri ∧ o.anomaly = d.anomaly ∧ o.ephemeris = d.ephemeris ∧ o.norad = d.norad ∧ o.elset = d.elset ∧
    o.rev = d.rev ∧ o.bstar = d.bstar ∧ o.nDot = d.nDot ∧ o.nDdot = d.nDdot := by
  have hth : (d.theory.any (fun t => eqIgnoreCase t "SGP4".toList = false) = false) ↔
      ∀ t, d.theory = some t → t.map lower = "sgp4".toList := by
    have e : ("SGP4".toList).map lower = "sgp4".toList := by decide
    rcases d.theory with _ | t
    · simp
    · have k : (t.map lower = "sgp4".toList) ↔ eqIgnoreCase t "SGP4".toList = true := by
        unfold eqIgnoreCase
        rw [e]
        simp
      simp only [Option.any_some, Option.some.injEq, forall_eq', k]
      simp
  have hcls : ∀ c, fromChar (d.cls.headD 'U') = .ok c ↔ ((∃ x t, d.cls = x :: t ∧ Letter x c) ∨ (d.cls = [] ∧ c = .unclassified)) := by
    intro c
    rcases d.cls with _ | ⟨x, t⟩
    · simp [fromChar]
      exact eq_comm
    · show fromChar x = .ok c ↔ _
      rw [fromChar_iff]
      simp
  unfold ofDto
  by_cases h : d.theory.any (fun t => eqIgnoreCase t "SGP4".toList = false) = true
  · rw [if_pos h]
    constructor
    · intro k
      cases k
    · rintro ⟨k, -⟩
      rw [hth.mpr k] at h
      cases h
  · rw [if_neg h]
    have h' := hth.mp (by simpa using h)
    simp only [bind_ok_iff, parseEpoch_iff, hcls]
    constructor
    · rintro ⟨e, he, c, hc, ho⟩
      cases ho
      exact ⟨h', he, hc, rfl, rfl, rfl, rfl, rfl, rfl, rfl, rfl, rfl, rfl, rfl, rfl, rfl, rfl, rfl⟩
    · rintro ⟨-, he, hc, h1, h2, h3, h4, h5, h6, h7, h8, h9, h10, h11, h12, h13, h14, h15⟩
      refine ⟨_, he, _, hc, ?_⟩
      obtain ⟨⟩ := o
      dsimp only at *
      subst_vars
      rfl

/-- The JSON record gives the message back exactly, for every catalogue number; the epoch is what the stamp reads as. -/
theorem json_round_trip {env : Env T} {o : Omm T} {c c' : Civil} {t : T} (hc : env.civil o.epoch = some c)
    (hp : env.parse (stamp c) = some c') (ht : env.make c' = some t) :
    ∃ d, toDto env o = .ok d ∧ ofDto env d = .ok { o with epoch := t } := by
  refine ⟨_, by unfold toDto formatEpoch; rw [hc]; rfl, ?_⟩
  rw [json_reads]
  refine ⟨?_, stamp_reads hp ht, Or.inl ⟨_, _, rfl, ?_⟩, rfl, rfl, rfl, rfl, rfl, rfl, rfl, rfl, rfl, rfl, rfl, rfl, rfl, rfl, rfl⟩
  · intro t ht
    cases ht
    decide
  · show Letter o.cls.asChar o.cls
    cases o.cls <;> trivial

/-- Writers fail exactly when the epoch has no calendar date. -/
theorem writers_fail (env : Env T) (o : Omm T) :
    ((∃ e, writeKvn env o = .err e) ↔ env.civil o.epoch = none) ∧ ((∃ e, writeXml env o = .err e) ↔ env.civil o.epoch = none) ∧
    ((∃ e, toDto env o = .err e) ↔ env.civil o.epoch = none) := by
  unfold writeKvn writeXml toDto formatEpoch
  rcases env.civil o.epoch with _ | c
  · exact ⟨⟨fun _ => rfl, fun _ => ⟨_, rfl⟩⟩, ⟨fun _ => rfl, fun _ => ⟨_, rfl⟩⟩, ⟨fun _ => rfl, fun _ => ⟨_, rfl⟩⟩⟩
  · exact ⟨⟨fun ⟨_, h⟩ => (by cases h), fun h => (by cases h)⟩, ⟨fun ⟨_, h⟩ => (by cases h), fun h => (by cases h)⟩,
      ⟨fun ⟨_, h⟩ => (by cases h), fun h => (by cases h)⟩⟩

/-! ### Malformed fields -/

/-- A drag term that is present and is no number is not reported: the message is read with a drag term of zero. -/
theorem malformed_drag_zero {env : Env T} {ls : List Str} {o : Omm T} {v : Str} (hl : ∀ l ∈ ls, LineOk l) (hv : Carried v)
    (hb : parseFloat v = none) (h : readKvn env (unlines ls) = .ok o) :
    readKvn env (unlines (ls ++ [kv "BSTAR" v])) = .ok { o with bstar := .num 0 } := by
  unfold readKvn at h ⊢
  rw [lines_unlines hl] at h
  have hok : ∀ l ∈ ls ++ [kv "BSTAR" v], LineOk l := by
    intro l hm
    rw [List.mem_append] at hm
    rcases hm with hm | hm
    · exact hl l hm
    · simp at hm
      subst hm
      exact kv_ok (by decide) hv
  rw [lines_unlines hok, List.foldl_append]
  simp only [List.foldl_cons, List.foldl_nil]
  rw [kv_line (by decide) hv]
  generalize ls.foldl kvnLine (fun _ => none) = m at *
  have hm := ((build_iff env id m).1 o).mp h
  apply ((build_iff env id _).1 _).mpr
  have e : ∀ k : String, k ≠ "BSTAR" → Kvn.insert m "BSTAR".toList v k.toList = m k.toList := by
    intro k hk
    unfold Kvn.insert
    rw [if_neg]
    intro h
    first
      | exact hk (String.toList_inj.mp h)
      | exact hk (String.toList_inj.mp h).symm
  obtain ⟨a1, a2, a3, a4, a5, a6, a7, a8, a9, a10, a11, a12, a13, a14, a15, a16, a17, a18⟩ := hm
  have go : ∀ {k : String} (P : (String → Str → Prop) → Prop), k ≠ "BSTAR" →
      (∀ v w : String → Str → Prop, v k = w k → P v → P w) → P (fun k t => m k.toList = some t) →
      P (fun k t => Kvn.insert m "BSTAR".toList v k.toList = some t) :=
    fun P hk hP h => hP _ _ (funext fun t => by rw [e _ hk]) h
  exact ⟨go (k := "MEAN_ELEMENT_THEORY") (fun val => ∀ t, val "MEAN_ELEMENT_THEORY" t → t.map lower = "sgp4".toList) (by decide) (fun v w h => by rw [h]; exact id) a1,
    go (k := "OBJECT_NAME") (fun val => ∃ t, val "OBJECT_NAME" t ∧ o.name = id t) (by decide) (fun v w h => by rw [h]; exact id) a2,
    go (k := "OBJECT_ID") (fun val => ∃ t, val "OBJECT_ID" t ∧ o.ident = id t) (by decide) (fun v w h => by rw [h]; exact id) a3,
    go (k := "EPOCH") (fun val => ∃ t, val "EPOCH" t ∧ Instant env t o.epoch) (by decide) (fun v w h => by rw [h]; exact id) a4,
    go (k := "CLASSIFICATION_TYPE") (fun val => (∃ c t, val "CLASSIFICATION_TYPE" (c :: t) ∧ Letter c o.cls) ∨
      ((∀ t, val "CLASSIFICATION_TYPE" t → t = []) ∧ o.cls = .unclassified)) (by decide) (fun v w h => by rw [h]; exact id) a5,
    go (k := "NORAD_CAT_ID") (fun val => ∃ t, val "NORAD_CAT_ID" t ∧ Catalogue (trimStart t) o.norad) (by decide) (fun v w h => by rw [h]; exact id) a6,
    go (k := "MEAN_MOTION") (fun val => Strict val "MEAN_MOTION" o.meanMotion) (by decide) (fun v w h => by unfold Strict; rw [h]; exact id) a7,
    go (k := "ECCENTRICITY") (fun val => Strict val "ECCENTRICITY" o.ecc) (by decide) (fun v w h => by unfold Strict; rw [h]; exact id) a8,
    go (k := "INCLINATION") (fun val => Strict val "INCLINATION" o.inc) (by decide) (fun v w h => by unfold Strict; rw [h]; exact id) a9,
    go (k := "RA_OF_ASC_NODE") (fun val => Strict val "RA_OF_ASC_NODE" o.node) (by decide) (fun v w h => by unfold Strict; rw [h]; exact id) a10,
    go (k := "ARG_OF_PERICENTER") (fun val => Strict val "ARG_OF_PERICENTER" o.peri) (by decide) (fun v w h => by unfold Strict; rw [h]; exact id) a11,
    go (k := "MEAN_ANOMALY") (fun val => Strict val "MEAN_ANOMALY" o.anomaly) (by decide) (fun v w h => by unfold Strict; rw [h]; exact id) a12,
    go (k := "EPHEMERIS_TYPE") (fun val => Lenient (parseUInt 255) val "EPHEMERIS_TYPE" 0 o.ephemeris) (by decide) (fun v w h => by unfold Lenient; rw [h]; exact id) a13,
    go (k := "ELEMENT_SET_NO") (fun val => Lenient (parseUInt 65535) val "ELEMENT_SET_NO" 0 o.elset) (by decide) (fun v w h => by unfold Lenient; rw [h]; exact id) a14,
    go (k := "REV_AT_EPOCH") (fun val => Lenient (parseUInt 4294967295) val "REV_AT_EPOCH" 0 o.rev) (by decide) (fun v w h => by unfold Lenient; rw [h]; exact id) a15,
    Or.inr ⟨fun t ht => by simp only [Kvn.insert, ↓reduceIte] at ht; cases ht; exact hb, rfl⟩,
    go (k := "MEAN_MOTION_DOT") (fun val => Lenient parseFloat val "MEAN_MOTION_DOT" (.num 0) o.nDot) (by decide) (fun v w h => by unfold Lenient; rw [h]; exact id) a17,
    go (k := "MEAN_MOTION_DDOT") (fun val => Lenient parseFloat val "MEAN_MOTION_DDOT" (.num 0) o.nDdot) (by decide) (fun v w h => by unfold Lenient; rw [h]; exact id) a18⟩

/-- The zone of an epoch is dropped: with `+02:00` the same instant is read as without. -/
theorem zone_dropped (env : Env T) {a z : Str} (ha : '+' ∉ a) (ht : Tight a) (hz : a.getLast? ≠ some 'Z') (h0 : a ≠ [])
    (h2 : Tight ('+' :: z)) : parseEpoch env (a ++ '+' :: z) = parseEpoch env a := by
  have t1 : Tight (a ++ '+' :: z) := by
    constructor
    · intro c hc
      obtain ⟨x, y, rfl⟩ := List.exists_cons_of_ne_nil h0
      simp at hc
      exact ht.1 c (by simp [hc])
    · intro c hc
      rw [List.getLast?_append_of_ne_nil _ (by simp)] at hc
      exact h2.2 c hc
  have e1 : (splitChar '+' (trimZ (trim (a ++ '+' :: z)))).headD (trimZ (trim (a ++ '+' :: z))) = a :=
    (datePart_iff _ _).mpr (Or.inl ⟨z, by rw [trim_tight t1], ha⟩)
  have e2 : (splitChar '+' (trimZ (trim a))).headD (trimZ (trim a)) = a :=
    (datePart_iff _ _).mpr (Or.inr ⟨by rwa [trim_tight ht], hz, 0, by rw [trim_tight ht]; simp⟩)
  unfold parseEpoch
  dsimp only
  rw [e1, e2]

example (env : Env T) : parseEpoch env "2024-05-13T12:00:00+02:00".toList = parseEpoch env "2024-05-13T12:00:00".toList :=
  zone_dropped env (a := "2024-05-13T12:00:00".toList) (z := "02:00".toList) (by decide) (tight_of_all (by decide)) (by decide) (by decide)
    (tight_of_all (by decide))

/-! ### Builder -/

/-- The value of the last call of a setter. -/
def last {α : Type} (sel : Set T → Option α) (calls : List (Set T)) : Option α := (calls.filterMap sel).getLast?

def selNorad : Set T → Option Nat | .norad v => some v | _ => none
def selIntl : Set T → Option Str | .intl v => some v | _ => none
def selEpoch : Set T → Option T | .epoch v => some v | _ => none
def selInc : Set T → Option F64 | .inc v => some v | _ => none
def selNode : Set T → Option F64 | .node v => some v | _ => none
def selEcc : Set T → Option F64 | .ecc v => some v | _ => none
def selPeri : Set T → Option F64 | .peri v => some v | _ => none
def selAnomaly : Set T → Option F64 | .anomaly v => some v | _ => none
def selMotion : Set T → Option F64 | .meanMotion v => some v | _ => none
def selName : Set T → Option Str | .name v => some v | _ => none
def selCls : Set T → Option Tle.Classification | .cls v => some v | _ => none
def selDot : Set T → Option F64 | .nDot v => some v | _ => none
def selDdot : Set T → Option F64 | .nDdot v => some v | _ => none
def selBstar : Set T → Option F64 | .bstar v => some v | _ => none
def selElset : Set T → Option Nat | .elset v => some v | _ => none
def selRev : Set T → Option Nat | .rev v => some v | _ => none

/-- The element set a sequence of calls describes. -/
structure Described (calls : List (Set T)) (t : Card T) : Prop where
  norad : last selNorad calls = some t.norad
  intl : last selIntl calls = some t.intl
  epoch : last selEpoch calls = some t.epoch
  inc : last selInc calls = some t.inc
  node : last selNode calls = some t.node
  ecc : last selEcc calls = some t.ecc
  peri : last selPeri calls = some t.peri
  anomaly : last selAnomaly calls = some t.anomaly
  meanMotion : last selMotion calls = some t.meanMotion
  name : t.name = last selName calls
  cls : t.cls = (last selCls calls).getD .unclassified
  nDot : t.nDot = (last selDot calls).getD (.num 0)
  nDdot : t.nDdot = (last selDdot calls).getD (.num 0)
  bstar : t.bstar = (last selBstar calls).getD (.num 0)
  elset : t.elset = (last selElset calls).getD 0
  rev : t.rev = (last selRev calls).getD 0

/-- The mandatory fields, in the order in which they are missed. -/
def mandatory (calls : List (Set T)) : List (String × Prop) :=
  [("norad_id", (last selNorad calls).isSome), ("international_designator", (last selIntl calls).isSome),
   ("epoch", (last selEpoch calls).isSome), ("inclination", (last selInc calls).isSome), ("raan", (last selNode calls).isSome),
   ("eccentricity", (last selEcc calls).isSome), ("argument_of_perigee", (last selPeri calls).isSome),
   ("mean_anomaly", (last selAnomaly calls).isSome), ("mean_motion", (last selMotion calls).isSome)]

theorem last_snoc {α : Type} (sel : Set T → Option α) (calls : List (Set T)) (x : Set T) :
    last sel (calls ++ [x]) = (sel x).or (last sel calls) := by
  unfold last
  rw [List.filterMap_append]
  rcases h : sel x with _ | v
  · simp [h]
  · simp [h]

theorem built_snoc (calls : List (Set T)) (x : Set T) : built (calls ++ [x]) = (built calls).set x := by
  unfold built
  simp

/-- The state of the builder after any calls. -/
theorem built_state (calls : List (Set T)) : built calls =
    { name := last selName calls, norad := last selNorad calls, cls := last selCls calls, intl := last selIntl calls,
      epoch := last selEpoch calls, nDot := (last selDot calls).getD (.num 0), nDdot := (last selDdot calls).getD (.num 0),
      bstar := (last selBstar calls).getD (.num 0), elset := (last selElset calls).getD 0, rev := (last selRev calls).getD 0,
      inc := last selInc calls, node := last selNode calls, ecc := last selEcc calls, peri := last selPeri calls,
      anomaly := last selAnomaly calls, meanMotion := last selMotion calls } := by
  induction calls using List.reverseRecOn with
  | nil => rfl
  | append_singleton calls x ih =>
    rw [built_snoc, ih]
    simp only [last_snoc]
    cases x <;> rfl

/-- Building succeeds exactly when the nine mandatory fields have been given; every field has the value given last, others
their defaults. -/
theorem builder_ok (calls : List (Set T)) (t : Card T) : (built calls).build = .ok t ↔ Described calls t := by
  rw [built_state]
  unfold Builder.build need
  simp only [bind_ok_iff, ofOption_ok]
  constructor
  · rintro ⟨a1, h1, a2, h2, a3, h3, a4, h4, a5, h5, a6, h6, a7, h7, a8, h8, a9, h9, ho⟩
    cases ho
    exact ⟨h1, h2, h3, h4, h5, h6, h7, h8, h9, rfl, rfl, rfl, rfl, rfl, rfl, rfl⟩
  · rintro ⟨h1, h2, h3, h4, h5, h6, h7, h8, h9, k1, k2, k3, k4, k5, k6, k7⟩
    refine ⟨_, h1, _, h2, _, h3, _, h4, _, h5, _, h6, _, h7, _, h8, _, h9, ?_⟩
    obtain ⟨⟩ := t
    dsimp only at *
    subst_vars
    rfl

/-- Building fails exactly when a mandatory field is missing, and names the first missing one. -/
theorem builder_err (calls : List (Set T)) (e : Err) : (built calls).build = .err e ↔
    ∃ pre f p post, mandatory calls = pre ++ (f, p) :: post ∧ ¬ p ∧ (∀ q ∈ pre, q.2) ∧ e = .unset f := by
  have first : ∀ (l : List (String × Prop)), (∃ pre f p post, l = pre ++ (f, p) :: post ∧ ¬ p ∧ (∀ q ∈ pre, q.2) ∧ e = .unset f) ↔
      match l with
      | [] => False
      | (f, p) :: r => (¬ p ∧ e = .unset f) ∨ (p ∧ ∃ pre f p post, r = pre ++ (f, p) :: post ∧ ¬ p ∧ (∀ q ∈ pre, q.2) ∧ e = .unset f) := by
    intro l
    cases l with
    | nil => simp
    | cons x r =>
      obtain ⟨f0, p0⟩ := x
      dsimp only
      constructor
      · rintro ⟨pre, f, p, post, h1, h2, h3, h4⟩
        cases pre with
        | nil =>
          simp only [List.nil_append, List.cons.injEq, Prod.mk.injEq] at h1
          obtain ⟨⟨rfl, rfl⟩, rfl⟩ := h1
          exact Or.inl ⟨h2, h4⟩
        | cons y ys =>
          simp only [List.cons_append, List.cons.injEq] at h1
          obtain ⟨rfl, rfl⟩ := h1
          exact Or.inr ⟨h3 (f0, p0) (by simp), ys, f, p, post, rfl, h2, fun q hq => h3 q (by simp [hq]), h4⟩
      · rintro (⟨h1, h2⟩ | ⟨h1, pre, f, p, post, rfl, h2, h3, h4⟩)
        · exact ⟨[], f0, p0, r, rfl, h1, by simp, h2⟩
        · refine ⟨(f0, p0) :: pre, f, p, post, rfl, h2, ?_, h4⟩
          intro q hq
          rw [List.mem_cons] at hq
          rcases hq with rfl | hq
          · exact h1
          · exact h3 q hq
  rw [built_state]
  unfold mandatory Builder.build need
  rw [first]; dsimp only
  have step : ∀ {α β : Type} (o : Option α) (f : String) (g : α → R β) (P : Prop), (∀ a, o = some a → (g a = .err e ↔ P)) →
      ((Res.ofOption (.unset f) o).bind g = .err e ↔ ((¬ o.isSome = true ∧ e = .unset f) ∨ (o.isSome = true ∧ P))) := by
    intro α β o f g P h
    rcases o with _ | a
    · simp only [Res.ofOption, Res.bind, Option.isSome_none]
      constructor
      · intro k
        cases k
        simp
      · rintro (⟨-, rfl⟩ | ⟨k, -⟩)
        · rfl
        · cases k
    · simp only [Res.ofOption, Res.bind, Option.isSome_some]
      rw [h a rfl]
      simp
  refine step _ _ _ _ fun _ _ => ?_
  rw [first]; dsimp only
  refine step _ _ _ _ fun _ _ => ?_
  rw [first]; dsimp only
  refine step _ _ _ _ fun _ _ => ?_
  rw [first]; dsimp only
  refine step _ _ _ _ fun _ _ => ?_
  rw [first]; dsimp only
  refine step _ _ _ _ fun _ _ => ?_
  rw [first]; dsimp only
  refine step _ _ _ _ fun _ _ => ?_
  rw [first]; dsimp only
  refine step _ _ _ _ fun _ _ => ?_
  rw [first]; dsimp only
  refine step _ _ _ _ fun _ _ => ?_
  rw [first]; dsimp only
  refine step _ _ _ _ fun _ _ => ?_
  rw [first]
  simp

/-! ### Cases -/

/-- The space station at 2024-05-13 12:00:00.5. -/
def sample : Omm Civil :=
  { name := "ISS (ZARYA)".toList, ident := "1998-067A".toList, epoch := ⟨2024, 5, 13, 12, 0, 0, 500000000⟩,
    meanMotion := .num (1549815350 / 100000000), ecc := .num (3572 / 10000000), inc := .num (516416 / 10000),
    node := .num (2474627 / 10000), peri := .num (1305360 / 10000), anomaly := .num (3250288 / 10000), ephemeris := 0,
    cls := .unclassified, norad := 25544, elset := 999, rev := 45212, bstar := .num (36258 * (10 : ℚ) ^ (-9 : ℤ)),
    nDot := .num (16717 * (10 : ℚ) ^ (-8 : ℤ)), nDdot := .num (0 * (10 : ℚ) ^ (0 : ℤ)) }

def sampleEnv : Env Civil :=
  { civil := some
    parse := fun s => if s = "2024-05-13T12:00:00.500000".toList then some ⟨2024, 5, 13, 12, 0, 0, 500000000⟩ else none
    make := some }

theorem sample_coarse : Coarse sample := by
  have d : ∀ (p : Nat) (k : Int) (q : ℚ), q = k / 10 ^ p → Decimals p (.num q) := fun p k q h => ⟨k, by rw [h]⟩
  have n : ∀ (m e : Int), |m| < 1000000000 → Nine (.num (m * (10 : ℚ) ^ e)) := fun m e h => ⟨m, e, h, rfl⟩
  have n1 := n 36258 (-9) (by decide)
  have n2 := n 16717 (-8) (by decide)
  have n3 := n 0 0 (by decide)
  push_cast at n1 n2 n3
  exact
    { meanMotion := d 8 1549815350 _ (by norm_num)
      ecc := d 7 3572 _ (by norm_num)
      inc := d 4 516416 _ (by norm_num)
      node := d 4 2474627 _ (by norm_num)
      peri := d 4 1305360 _ (by norm_num)
      anomaly := d 4 3250288 _ (by norm_num)
      bstar := n1
      nDot := n2
      nDdot := n3 }

theorem sample_stamp : stamp sample.epoch = "2024-05-13T12:00:00.500000".toList := by decide +kernel

/-- The round trips apply to it, in both text forms, also with reserved characters in the name. -/
example : (∃ text, writeKvn sampleEnv sample = .ok text ∧ readKvn sampleEnv text = .ok sample) ∧
    (∃ text, writeXml sampleEnv { sample with name := "A & B <\"x\">".toList } = .ok text ∧
      readXml sampleEnv text = .ok { sample with name := "A & B <\"x\">".toList }) ∧
    (∃ text, writeKvn sampleEnv { sample with norad := 270000 } = .ok text ∧
      readKvn sampleEnv text = .err (.satellite .invalidAlpha5)) := by
  have cn : Carried sample.name := ⟨⟨by decide, by decide⟩, by decide⟩
  have ci : Carried sample.ident := ⟨⟨by decide, by decide⟩, by decide⟩
  have hp : sampleEnv.parse (stamp sample.epoch) = some sample.epoch := by rw [sample_stamp]; rfl
  have hr : InRange sample := ⟨by decide, by decide, by decide, by decide⟩
  obtain ⟨k1, k2, k3, k4, k5, k6, k7, k8, k9⟩ := sample_coarse
  exact ⟨kvn_exact rfl hp rfl cn ci hr (by decide) sample_coarse,
    xml_exact (o := { sample with name := "A & B <\"x\">".toList }) rfl hp rfl ⟨by decide, by decide⟩ ci.1
      ⟨by decide, by decide, by decide, by decide⟩ (by decide) ⟨k1, k2, k3, k4, k5, k6, k7, k8, k9⟩,
    kvn_large_refused (o := { sample with norad := 270000 }) rfl hp rfl cn ci (by decide)⟩

/-- A drag term `abc` reads as zero. -/
example : ∃ ls : List Str, readKvn sampleEnv (unlines (ls ++ [kv "BSTAR" "abc".toList])) = .ok { sample with bstar := .num 0 } := by
  have cn : Carried sample.name := ⟨⟨by decide, by decide⟩, by decide⟩
  have ci : Carried sample.ident := ⟨⟨by decide, by decide⟩, by decide⟩
  have hp : sampleEnv.parse (stamp sample.epoch) = some sample.epoch := by rw [sample_stamp]; rfl
  obtain ⟨text, h1, h2⟩ := kvn_exact (env := sampleEnv) (o := sample) rfl hp rfl cn ci ⟨by decide, by decide, by decide, by decide⟩ (by decide) sample_coarse
  rw [writeKvn_ok (c := sample.epoch) rfl] at h1
  cases h1
  exact ⟨_, malformed_drag_zero (kvn_lines_ok cn ci) ⟨⟨by decide, by decide⟩, by decide⟩ (by decide +kernel) h2⟩

/-- Outside ASCII the short form is not restored. -/
example : contract (expand "1998-é".toList) = "98é".toList := by decide +kernel

/-- A builder with the catalogue number and the designator given lacks the epoch. -/
example : (built [Set.norad 25544, .intl "98067A".toList, .norad 5, .inc (.num 51)] : Builder Nat).build = .err (.unset "epoch") := rfl

end Verif.Omm.Props
