import Verif.Daf.Loop

/-
Claims C23 (termination), C24 (reading back what was written) and C25 (segment tables).
-/
namespace Verif.Daf
open Verif.Text Verif.Bits Spec

/-! ### Writer -/

theorem recordBody_length {le : Bool} {nd ni next prev : Nat} {es : List Entry}
    (h : ∀ e ∈ es, e.doubles.length = nd ∧ e.ints.length = ni) :
    (recordBody le next prev es).length = 24 + es.length * (summarySize nd ni * 8) := by
  have : (es.flatMap (encEntry le)).length = es.length * (summarySize nd ni * 8) := by
    induction es with
    | nil => simp
    | cons e es ih =>
      rw [List.flatMap_cons, List.length_append, encEntry_length (h e (by simp)).1 (h e (by simp)).2,
        ih (fun x hx => h x (by simp [hx]))]
      simp only [List.length_cons]
      ring
  unfold recordBody
  simp only [List.length_append, f64b_length, this]

/-- Groups that fit: summaries of the right shape, at most a record full, filler in whole records. -/
def GroupsFit (nd ni : Nat) (groups : List (List Entry × Bytes)) : Prop :=
  ∀ g ∈ groups, (∀ e ∈ g.1, e.doubles.length = nd ∧ e.ints.length = ni) ∧
    24 + g.1.length * (summarySize nd ni * 8) ≤ 1024 ∧ 1024 ∣ g.2.length

theorem encRecords_chain {le : Bool} {nd ni : Nat} (hnd : 1 ≤ nd) :
    ∀ (groups : List (List Entry × Bytes)) (r prev : Nat) (pre : Bytes), 1 ≤ r →
      pre.length = (r - 1) * 1024 → GroupsFit nd ni groups →
      (pre ++ encRecords le r prev groups).length < 2 ^ 53 * 1024 →
      Chain le nd ni (pre ++ encRecords le r prev groups) (if groups = [] then 0 else r)
        (groups.map Prod.fst)
  | [], r, prev, pre, _, _, _, _ => by simpa using Chain.done
  | (es, filler) :: rest, r, prev, pre, hr, hpre, hfit, hlen => by
    obtain ⟨hes, hcap, q, hq⟩ := hfit (es, filler) (by simp)
    simp only at hes hcap hq
    have hbody : (recordBody le (if rest = [] then 0 else r + 1 + filler.length / 1024) prev es).length
        ≤ 1024 := by rw [recordBody_length hes]; exact hcap
    have hrec : (encRecord le (if rest = [] then 0 else r + 1 + filler.length / 1024) prev es).length
        = 1024 := by
      unfold encRecord
      rw [List.length_append, List.length_replicate]
      omega
    have hfl : filler.length / 1024 = q := by rw [hq]; omega
    have hdata : pre ++ encRecords le r prev ((es, filler) :: rest) =
        (pre ++ encRecord le (if rest = [] then 0 else r + 1 + filler.length / 1024) prev es ++ filler) ++
          encRecords le (r + 1 + filler.length / 1024) r rest := by
      simp only [encRecords, List.append_assoc]
    have hnewlen : (pre ++ encRecord le (if rest = [] then 0 else r + 1 + filler.length / 1024) prev es
        ++ filler).length = (r + 1 + filler.length / 1024 - 1) * 1024 := by
      rw [List.length_append, List.length_append, hrec, hpre, hfl, hq]
      omega
    have ih := encRecords_chain (le := le) hnd rest (r + 1 + filler.length / 1024) r
      (pre ++ encRecord le (if rest = [] then 0 else r + 1 + filler.length / 1024) prev es ++ filler)
      (by omega) hnewlen (fun g hg => hfit g (by simp [hg])) (by rw [← hdata]; exact hlen)
    rw [← hdata] at ih
    have hle : (r + filler.length / 1024) * 1024 ≤
        (pre ++ encRecords le r prev ((es, filler) :: rest)).length := by
      rw [hdata, List.length_append, hnewlen]
      omega
    have hss : 1 ≤ summarySize nd ni := by unfold summarySize; omega
    have hessm : es.length ≤ es.length * (summarySize nd ni * 8) :=
      Nat.le_mul_of_pos_right _ (by omega)
    have hr53 : r < 2 ^ 53 := by
      have h1 : r * 1024 ≤ (r + filler.length / 1024) * 1024 := Nat.mul_le_mul_right _ (by omega)
      exact Nat.lt_of_mul_lt_mul_right (lt_of_le_of_lt (h1.trans hle) hlen)
    rw [if_neg (by simp)]
    simp only [List.map_cons]
    refine Chain.link (next := if rest = [] then 0 else r + 1 + filler.length / 1024) (prev := prev)
      (by omega) hr53 ?_ (by omega) ((Nat.mul_le_mul_right _ (by omega)).trans hle) hes ?_ ih
    · split
      · norm_num
      · rename_i hne
        cases rest with
        | nil => exact absurd rfl hne
        | cons g rest' =>
          obtain ⟨es', filler'⟩ := g
          have h1 : 1024 ≤ (encRecords le (r + 1 + filler.length / 1024) r ((es', filler') :: rest')).length := by
            simp only [encRecords, encRecord, List.length_append, List.length_replicate]
            omega
          rw [hdata, List.length_append, hnewlen] at hlen
          have h2 : (r + 1 + filler.length / 1024) * 1024 < 2 ^ 53 * 1024 := by
            refine lt_of_le_of_lt ?_ hlen
            calc (r + 1 + filler.length / 1024) * 1024
                = (r + 1 + filler.length / 1024 - 1) * 1024 + 1024 := by
                  rw [show r + 1 + filler.length / 1024 - 1 = r + filler.length / 1024 by omega]
                  rw [show r + 1 + filler.length / 1024 = r + filler.length / 1024 + 1 by omega,
                    Nat.add_mul, Nat.one_mul]
              _ ≤ _ := Nat.add_le_add_left h1 _
          exact Nat.lt_of_mul_lt_mul_right h2
    · refine ⟨pre, List.replicate (1024 - (recordBody le
        (if rest = [] then 0 else r + 1 + filler.length / 1024) prev es).length) 0 ++ filler ++
        encRecords le (r + 1 + filler.length / 1024) r rest, ?_, hpre⟩
      simp only [encRecords, encRecord, List.append_assoc]

/-! ### C24 -/

/-- A file whose summary records, followed from the first-record pointer, hold the given groups of
summaries is parsed to exactly these summaries in order. Any byte order, any placement of the
records, any number of groups and of summaries per group. -/
theorem daf_reads_summaries {ck le : Bool} {other : Bytes → Bool} {nd ni fward fuel : Nat}
    {data : Bytes} {groups : List (List Entry)} (hh : HasHeader le nd ni fward data)
    (hc : Chain le nd ni data fward groups) (hf : groups.length < fuel) :
    parseRaw ck other fuel data =
      some (.ok (nd, ni, groups.flatten.map (fun e => ⟨e.doubles, e.ints⟩))) := by
  obtain ⟨h1, h2, h3⟩ := header_fields hh other
  unfold parseRaw
  rw [if_neg (by have := hh.size; omega), if_neg (by simp [h1]), h2]
  simp only [h3]
  rw [toInt_ofNat_small hh.fward_lt, iToUsize_nat (by have := hh.fward_lt; omega)]
  rw [recordLoop_chain (val := fun e : Entry => (⟨e.doubles, e.ints⟩ : RawSummary))
    (fun e hd hi off ho => readRaw_at hd hi ho) hc fuel [] hf]
  rfl

/-- The SPK reader returns the epochs, codes and word numbers that were written. -/
theorem daf_reads_spk_summaries {ck le : Bool} {other : Bytes → Bool} {fward fuel : Nat}
    {data : Bytes} {groups : List (List SpkFields)} (hh : HasHeader le 2 6 fward data)
    (hc : Chain le 2 6 data fward (groups.map (List.map SpkFields.entry)))
    (hw : ∀ s ∈ groups.flatten, s.startWord.toNat < 2 ^ 31 ∧ s.endWord.toNat < 2 ^ 31)
    (hf : groups.length < fuel) :
    parseSpk ck other fuel data = some (.ok (groups.flatten.map (fun s =>
      ⟨s.startEt, s.endEt, s.target.toInt, s.center.toInt, s.frame.toInt, s.dataType.toInt,
        s.startWord.toNat, s.endWord.toNat⟩))) := by
  obtain ⟨h1, h2, h3⟩ := header_fields hh other
  unfold parseSpk
  rw [if_neg (by have := hh.size; omega), if_neg (by simp [h1]), h2]
  simp only [h3]
  rw [if_neg (by simp), toInt_ofNat_small hh.fward_lt, iToUsize_nat (by have := hh.fward_lt; omega)]
  rw [recordLoop_chain (val := spkOf) (fun e hd hi off ho => readSpk_at hd hi ho) hc fuel []
    (by simpa using hf)]
  rw [List.nil_append, ← List.map_flatten, List.map_map]
  congr 2
  refine List.map_congr_left (fun s hs => ?_)
  have hnn : ∀ x : BitVec 32, x.toNat < 2 ^ 31 → iToUsize x.toInt = x.toNat := by
    intro x hx
    rw [BitVec.toInt_eq_toNat_cond, if_pos (by omega)]
    exact iToUsize_nat (by omega)
  have := hw s hs
  simp only [Function.comp, spkOf, SpkFields.entry]
  simp [hnn s.startWord this.1, hnn s.endWord this.2]

theorem encFile_layout {le : Bool} {loc name tail : Bytes} {nd ni : Nat}
    {groups : List (List Entry × Bytes)} (hnd : 1 ≤ nd ∧ nd ≤ 100) (hni : 1 ≤ ni ∧ ni ≤ 100)
    (hloc : loc.length = 8) (hdaf : "DAF/".toList.map (fun c => UInt8.ofNat c.toNat) <+: loc)
    (hasc : ∀ b ∈ loc, b < 128) (hname : name.length = 60) (htail : tail.length = 944)
    (hfit : GroupsFit nd ni groups)
    (hlen : (encFile le loc nd ni name tail groups).length < 2 ^ 53 * 1024) :
    HasHeader le nd ni (if groups = [] then 0 else 2) (encFile le loc nd ni name tail groups) ∧
      Chain le nd ni (encFile le loc nd ni name tail groups) (if groups = [] then 0 else 2)
        (groups.map Prod.fst) := by
  have hhl : (header le loc nd ni (if groups = [] then 0 else 2) name tail).length = 1024 := by
    unfold header
    simp [hloc, hname, htail]
  refine ⟨⟨hnd, hni, by split <;> norm_num, by unfold encFile; rw [List.length_append]; omega,
    loc, name, tail, encRecords le 2 0 groups, rfl, hloc, hname, hdaf, hasc⟩, ?_⟩
  exact encRecords_chain hnd.1 groups 2 0 _ (by norm_num) (by rw [hhl]) hfit hlen

/-- Writing then reading: every list of groups of summaries comes back flattened, in order. -/
theorem daf_write_read {ck le : Bool} {other : Bytes → Bool} {loc name tail : Bytes} {nd ni fuel : Nat}
    {groups : List (List Entry × Bytes)} (hnd : 1 ≤ nd ∧ nd ≤ 100) (hni : 1 ≤ ni ∧ ni ≤ 100)
    (hloc : loc.length = 8) (hdaf : "DAF/".toList.map (fun c => UInt8.ofNat c.toNat) <+: loc)
    (hasc : ∀ b ∈ loc, b < 128) (hname : name.length = 60) (htail : tail.length = 944)
    (hfit : GroupsFit nd ni groups)
    (hlen : (encFile le loc nd ni name tail groups).length < 2 ^ 53 * 1024)
    (hf : groups.length < fuel) :
    parseRaw ck other fuel (encFile le loc nd ni name tail groups) =
      some (.ok (nd, ni, (groups.map Prod.fst).flatten.map (fun e => ⟨e.doubles, e.ints⟩))) := by
  obtain ⟨h1, h2⟩ := encFile_layout (le := le) hnd hni hloc hdaf hasc hname htail hfit hlen
  exact daf_reads_summaries h1 h2 (by simpa using hf)

/-- `DAF/SPK `. -/
def locSpk : Bytes := [68, 65, 70, 47, 83, 80, 75, 32]

theorem locSpk_ok : locSpk.length = 8 ∧
    "DAF/".toList.map (fun c => UInt8.ofNat c.toNat) <+: locSpk ∧ ∀ b ∈ locSpk, b < 128 :=
  ⟨rfl, ⟨[83, 80, 75, 32], by decide⟩, by decide⟩

/-- A case: a big-endian file with two groups, the first followed by a name record. -/
example (ck : Bool) (other : Bytes → Bool) (name names tail : Bytes) (hname : name.length = 60)
    (hnames : names.length = 1024) (htail : tail.length = 944) :
    parseRaw ck other 3 (encFile false locSpk 2 6 name tail
      [([⟨[5, 6], [399, 10, 1, 2, 257, 300]⟩, ⟨[7, 8], [301, 3, 1, 2, 301, 400]⟩], names),
        ([⟨[9, 4], [10, 0, 1, 3, 401, 500]⟩], [])]) =
      some (.ok (2, 6, [⟨[5, 6], [399, 10, 1, 2, 257, 300]⟩, ⟨[7, 8], [301, 3, 1, 2, 301, 400]⟩,
        ⟨[9, 4], [10, 0, 1, 3, 401, 500]⟩])) := by
  have hg1 : ∀ e ∈ [(⟨[5, 6], [399, 10, 1, 2, 257, 300]⟩ : Entry), ⟨[7, 8], [301, 3, 1, 2, 301, 400]⟩],
      e.doubles.length = 2 ∧ e.ints.length = 6 := by
    intro e he
    rcases List.mem_cons.mp he with rfl | he
    · exact ⟨rfl, rfl⟩
    · rw [List.mem_singleton] at he; subst he; exact ⟨rfl, rfl⟩
  have hg2 : ∀ e ∈ [(⟨[9, 4], [10, 0, 1, 3, 401, 500]⟩ : Entry)],
      e.doubles.length = 2 ∧ e.ints.length = 6 := by
    intro e he
    rw [List.mem_singleton] at he; subst he; exact ⟨rfl, rfl⟩
  refine daf_write_read (by norm_num) (by norm_num) locSpk_ok.1 locSpk_ok.2.1 locSpk_ok.2.2
    hname htail ?_ ?_ (by norm_num)
  · intro g hg
    rcases List.mem_cons.mp hg with rfl | hg
    · exact ⟨hg1, by norm_num [summarySize], by rw [hnames]⟩
    · rw [List.mem_singleton] at hg; subst hg
      exact ⟨hg2, by norm_num [summarySize], by norm_num⟩
  · unfold encFile header encRecords encRecords encRecords encRecord
    simp only [List.length_append, List.length_replicate, i32b_length, locSpk_ok.1, List.length_nil,
      recordBody_length hg1, recordBody_length hg2, hname, hnames, htail]
    norm_num [summarySize]

/-! ### C23 -/

/-- If some summary record points to itself, parsing never finishes: the claim is false of the
code. -/
theorem daf_self_pointer_never_finishes {ck le : Bool} {other : Bytes → Bool} {nd ni r prev : Nat}
    {data : Bytes} {es : List Entry} (hh : HasHeader le nd ni r data) (hr : r ≠ 0)
    (hlen : r * 1024 ≤ data.length) (hl : es.length < 2 ^ 53)
    (hes : ∀ e ∈ es, e.doubles.length = nd ∧ e.ints.length = ni)
    (hat : At data ((r - 1) * 1024) (recordBody le r prev es)) :
    ∀ fuel, parseRaw ck other fuel data = none := by
  have hf := hh.fward_lt
  obtain ⟨h1, h2, h3⟩ := header_fields hh other
  have hrec : readRecord ck le (readRaw le data nd ni) data (summarySize nd ni) r =
      .ok (r, es.map (fun e => ⟨e.doubles, e.ints⟩)) := by
    obtain ⟨a1, a2⟩ := rec_off_lt (r := r) (by omega)
    unfold recordBody at hat
    unfold readRecord mulU addU
    simp only [a1, a2, if_true, Res.bind_ok]
    rw [if_neg (by omega)]
    have w1 := readF64_at hat.left.left.left
    have w2 := hat.left.right
    simp only [List.length_append, f64b_length] at w2
    have w3 := readF64_at w2
    have w4 := hat.right
    simp only [List.length_append, f64b_length] at w4
    have w5 := readSummaries_at (val := fun e : Entry => (⟨e.doubles, e.ints⟩ : RawSummary))
      (ss := summarySize nd ni) (recOff := (r - 1) * 1024) es
      (fun e he off ho => readRaw_at (hes e he).1 (hes e he).2 ho)
      (fun e he => encEntry_length (hes e he).1 (hes e he).2) 0 (by simpa using w4)
    rw [w1, w3]
    simp only [Res.bind_ok]
    rw [fToUsize_fOfNat hl, w5, fToI64_fOfNat (by omega)]
    simp only [Res.bind_ok]
    rw [iToUsize_nat (by omega)]
  have hloop : ∀ fuel acc, recordLoop ck le (readRaw le data nd ni) data (summarySize nd ni) fuel r acc
      = none := by
    intro fuel
    induction fuel with
    | zero => intro acc; rfl
    | succ n ih =>
      intro acc
      unfold recordLoop
      rw [if_neg hr, hrec]
      exact ih _
  intro fuel
  unfold parseRaw
  rw [if_neg (by have := hh.size; omega), if_neg (by simp [h1]), h2]
  simp only [h3]
  rw [toInt_ofNat_small hh.fward_lt, iToUsize_nat (by omega), hloop]
  rfl

/-- A file record and one summary record with a chosen forward pointer word and no summaries. -/
def oneRecord (fwd : BitVec 64) : Bytes :=
  header true locSpk 2 6 2 (List.replicate 60 32) (List.replicate 944 0) ++
    (f64b true fwd ++ f64b true 0 ++ f64b true 0 ++ List.replicate 1000 0)

theorem oneRecord_header (fwd : BitVec 64) : HasHeader true 2 6 2 (oneRecord fwd) :=
  ⟨by norm_num, by norm_num, by norm_num,
    by simp only [oneRecord, header, List.length_append, f64b_length, i32b_length,
        List.length_replicate, locSpk_ok.1]; norm_num,
    locSpk, List.replicate 60 32, List.replicate 944 0, _, rfl, locSpk_ok.1, by simp,
    locSpk_ok.2.1, locSpk_ok.2.2⟩

theorem oneRecord_length (fwd : BitVec 64) : (oneRecord fwd).length = 2048 := by
  simp only [oneRecord, header, List.length_append, f64b_length, i32b_length, List.length_replicate,
    locSpk_ok.1]

theorem oneRecord_at (fwd : BitVec 64) :
    At (oneRecord fwd) 1024 (f64b true fwd ++ f64b true 0 ++ f64b true 0) :=
  ⟨header true locSpk 2 6 2 (List.replicate 60 32) (List.replicate 944 0), List.replicate 1000 0,
    by simp only [oneRecord, List.append_assoc],
    by simp only [header, List.length_append, i32b_length, List.length_replicate, locSpk_ok.1]⟩

/-- A concrete 2048-byte file on which `DafRaw::parse` runs forever. -/
theorem daf_hang_witness (ck : Bool) (other : Bytes → Bool) (fuel : Nat) :
    parseRaw ck other fuel (oneRecord (fOfNat 2)) = none := by
  refine daf_self_pointer_never_finishes (prev := 0) (es := []) (oneRecord_header _) (by norm_num)
    (by rw [oneRecord_length]) (by norm_num) (by simp) ?_ fuel
  have := oneRecord_at (fOfNat 2)
  simpa [recordBody, fOfNat] using this

/-- The bit pattern of `2^54`. -/
def w54 : BitVec 64 := BitVec.ofNat 64 (1077 * 2 ^ 52)

theorem w54_i64 : iToUsize (fToI64 w54) = 2 ^ 54 := by
  have h : fVal w54 = some (2 ^ 54 : ℚ) := by
    have e : w54.toNat = 1077 * 2 ^ 52 := by rfl
    have e1 : fExp w54 = 1077 := by unfold fExp; rw [e]; norm_num
    have e2 : fMant w54 = 0 := by unfold fMant; rw [e]; norm_num
    have e3 : fSign w54 = false := by unfold fSign; rw [e]; decide
    unfold fVal
    rw [e1, e2, e3]
    norm_num
  unfold fToI64 fCast
  rw [h]
  have : truncRat (2 ^ 54 : ℚ) = 2 ^ 54 := by
    unfold truncRat
    rw [if_pos (by norm_num)]
    exact_mod_cast Int.floor_natCast (2 ^ 54)
  simp only [this]
  unfold iToUsize
  omega

/-- A concrete file on which the parser panics, in debug and in release builds. -/
theorem daf_panic_witness (ck : Bool) (other : Bytes → Bool) :
    parseRaw ck other 2 (oneRecord w54) = some .panic := by
  have hh := oneRecord_header w54
  obtain ⟨h1, h2, h3⟩ := header_fields hh other
  have hlen := oneRecord_length w54
  have hat := oneRecord_at w54
  have hr2 : readRecord ck true (readRaw true (oneRecord w54) 2 6) (oneRecord w54) (summarySize 2 6) 2 =
      .ok (2 ^ 54, []) := by
    obtain ⟨a1, a2⟩ := rec_off_lt (r := 2) (by norm_num)
    unfold readRecord mulU addU
    simp only [a1, a2, if_true, Res.bind_ok]
    rw [if_neg (by omega)]
    have w1 := readF64_at hat.left.left
    have w2 := hat.right
    simp only [List.length_append, f64b_length] at w2
    have w3 := readF64_at w2
    rw [show (2 - 1) * 1024 = 1024 by norm_num, w1, w3]
    simp only [Res.bind_ok]
    have : fToUsize 0 = 0 := by
      have := fToUsize_fOfNat (n := 0) (by norm_num)
      simpa [fOfNat] using this
    rw [this, w54_i64]
    rfl
  have hr54 : readRecord ck true (readRaw true (oneRecord w54) 2 6) (oneRecord w54) (summarySize 2 6)
      (2 ^ 54) = .panic := by
    unfold readRecord
    have m : (mulU ck (2 ^ 54 - 1) 1024 : Res Err Nat) = .ok (2 ^ 64 - 1024) := by
      unfold mulU; rw [if_pos (by norm_num)]; norm_num
    rw [m]
    simp only [Res.bind_ok]
    cases ck with
    | true =>
      have : (addU true (2 ^ 64 - 1024) 1024 : Res Err Nat) = .panic := by
        unfold addU; rw [if_neg (by norm_num)]; rfl
      rw [this]; rfl
    | false =>
      have : (addU false (2 ^ 64 - 1024) 1024 : Res Err Nat) = .ok 0 := by
        unfold addU; rw [if_neg (by norm_num)]; norm_num
      rw [this]
      simp only [Res.bind_ok]
      rw [if_neg (by omega)]
      have : readF64 true (oneRecord w54) (2 ^ 64 - 1024) = .panic := by
        unfold readF64 sliceB
        rw [hlen, if_neg (by norm_num)]
        rfl
      rw [this]; rfl
  unfold parseRaw
  rw [if_neg (by omega), if_neg (by simp [h1]), h2]
  simp only [h3]
  rw [toInt_ofNat_small hh.fward_lt, iToUsize_nat (by norm_num)]
  unfold recordLoop
  rw [if_neg (by norm_num), hr2]
  simp only
  unfold recordLoop
  rw [if_neg (by norm_num), hr54]
  rfl

/-- C23 as far as it holds: if the first-record number is not negative and every forward pointer met
is zero or points past its own record (and below `2^53`), parsing finishes within
`length / 1024 + 2` passes, without panic. Missing: files with a backward pointer on the way (which
may loop for ever) or a pointer of `2^53` and more (which may panic). -/
theorem daf_parse_finishes_partial {ck : Bool} {other : Bytes → Bool} {data : Bytes} {fuel : Nat}
    (hfwd : ∀ le fw, ByteOrder le data → At data 76 (i32b le fw) → 0 ≤ fw.toInt ∧
      ∀ r w, Reach le data fw.toInt r → 0 < r → At data ((r - 1).toNat * 1024) (f64b le w) →
        fToI64 w = 0 ∨ (r < fToI64 w ∧ fToI64 w < 2 ^ 53))
    (hf : data.length / 1024 + 2 ≤ fuel) :
    ∃ res, parseRaw ck other fuel data = some res ∧ res ≠ .panic := by
  unfold parseRaw
  split
  · exact ⟨_, rfl, by simp⟩
  rename_i hlen
  split
  · exact ⟨_, rfl, by simp⟩
  have hsh : readShape data ≠ .panic := by
    unfold readShape
    refine bind_ne_panic (readI32_ne_panic (by omega)) (fun _ _ => ?_)
    refine bind_ne_panic (readI32_ne_panic (by omega)) (fun _ _ => ?_)
    refine bind_ne_panic (readI32_ne_panic (by omega)) (fun _ _ => ?_)
    refine bind_ne_panic (readI32_ne_panic (by omega)) (fun _ _ => ?_)
    split
    · simp
    · split <;> simp
  cases hs : readShape data with
  | err e => exact ⟨_, rfl, by simp⟩
  | panic => exact absurd hs hsh
  | ok p =>
    obtain ⟨le, nd, ni⟩ := p
    simp only
    cases hw : readI32 le data 76 with
    | err e => exact ⟨_, rfl, by simp⟩
    | panic => exact absurd hw (readI32_ne_panic (by omega))
    | ok w =>
      simp only
      obtain ⟨hnn, hp⟩ := hfwd le w (readShape_order hs) (readI32_ok_at hw)
      have hwb : w.toInt < 2 ^ 31 := by
        have := BitVec.toInt_lt (x := w); simpa using this
      have hr : iToUsize w.toInt < 2 ^ 53 := by unfold iToUsize; omega
      have hri : (iToUsize w.toInt : Int) = w.toInt := by unfold iToUsize; omega
      obtain ⟨res, h1, h2⟩ := recordLoop_forward (ck := ck) (le := le) (ss := summarySize nd ni)
        (fun off ho => readRaw_ne_panic (le := le) ho) hp fuel (iToUsize w.toInt) []
        (by rw [hri]; exact Reach.start) hr (by omega) (by omega)
      rw [h1]
      refine ⟨_, rfl, ?_⟩
      cases res with
      | ok l => simp
      | err e => simp
      | panic => exact absurd rfl h2

theorem At_unique {data a b : Bytes} {off : Nat} (ha : At data off a) (hb : At data off b)
    (hl : a.length = b.length) : a = b := by
  have h1 := ha.slice
  have h2 := hb.slice
  rw [← hl, h1] at h2
  exact Option.some.inj h2

/-- The hypotheses hold of a file with one summary record and a zero pointer. -/
example (ck : Bool) (other : Bytes → Bool) :
    ∃ res, parseRaw ck other 4 (oneRecord 0) = some res ∧ res ≠ .panic := by
  have hnd : At (oneRecord 0) 8 (i32b true 2) :=
    ⟨locSpk, _, by simp only [oneRecord, header, List.append_assoc]; rfl, locSpk_ok.1⟩
  have hfw76 := (header_fields (oneRecord_header 0) (fun _ => true)).2.2
  refine daf_parse_finishes_partial (fun le fw hbo hat => ?_) (by rw [oneRecord_length])
  obtain ⟨nd, ni, h1, _, h2, h3, _⟩ := hbo
  cases le with
  | false =>
    exfalso
    have := At_unique h1 hnd (by rw [i32b_length, i32b_length])
    have e : nd = BitVec.ofNat 32 (bytesNat false (i32b false nd)) := (ofNat_bytes32 false nd).symm
    rw [this] at e
    have : nd.toInt = 33554432 := by rw [e]; decide
    omega
  | true =>
    have hfw2 : fw = 2 := by
      have := readI32_at hat
      rw [hfw76] at this
      exact (Res.ok.inj this).symm
    subst hfw2
    refine ⟨by decide, fun r w hr hpos hw => ?_⟩
    have hz : ∀ r : Int, Reach true (oneRecord 0) (2#32).toInt r → r = 2 ∨ r = 0 := by
      intro r hr
      induction hr with
      | start => left; decide
      | @next r w _ hpos hat ih =>
        right
        rcases ih with rfl | rfl
        · have h0 := readF64_at (oneRecord_at 0).left.left
          have h1 := readF64_at hat
          norm_num at h1
          rw [h1] at h0
          rw [Res.ok.inj h0]
          have := fToI64_fOfNat (n := 0) (by norm_num)
          simpa [fOfNat] using this
        · omega
    have hn := hz _ (Reach.next hr hpos hw)
    rcases hz r hr with rfl | rfl
    · rcases hn with hn | hn
      · exfalso
        have h0 := readF64_at (oneRecord_at 0).left.left
        have h1 := readF64_at hw
        norm_num at h1
        rw [h1] at h0
        rw [Res.ok.inj h0] at hn
        have := fToI64_fOfNat (n := 0) (by norm_num)
        simp [fOfNat] at this
        rw [show (0 : BitVec 64) = 0#64 from rfl] at hn
        omega
      · left; exact hn
    · omega

/-- Non-termination is decided early: a file that is not parsed within `length / 1024 + 1` passes is
never parsed. -/
theorem daf_hang_is_early {ck : Bool} {other : Bytes → Bool} {data : Bytes}
    (hlen : data.length < 2 ^ 63) (h : parseRaw ck other (data.length / 1024 + 1) data = none) :
    ∀ fuel, parseRaw ck other fuel data = none := by
  intro fuel
  unfold parseRaw at h ⊢
  split at h
  · simp at h
  rename_i h1
  rw [if_neg h1]
  split at h
  · simp at h
  rename_i h2
  rw [if_neg h2]
  cases hs : readShape data with
  | err e => rw [hs] at h; simp at h
  | panic => rw [hs] at h; simp at h
  | ok p =>
    obtain ⟨le, nd, ni⟩ := p
    rw [hs] at h
    simp only at h ⊢
    cases hw : readI32 le data 76 with
    | err e => rw [hw] at h; simp at h
    | panic => rw [hw] at h; simp at h
    | ok w =>
      rw [hw] at h
      simp only [Option.map_eq_none_iff] at h ⊢
      rw [recordLoop_none_iff] at h ⊢
      refine iter_forever (key := recKey) ?_ ?_ h fuel
      · intro r hr
        unfold step at hr
        split at hr
        · simp at hr
        · cases hrec : readRecord ck le (readRaw le data nd ni) data (summarySize nd ni) r with
          | ok p => exact (readRecord_key hlen hrec).1
          | err e => rw [hrec] at hr; simp at hr
          | panic => rw [hrec] at hr; simp at hr
      · intro r s hr hs hk
        unfold step at hr hs ⊢
        split at hr
        · simp at hr
        rename_i hr0
        split at hs
        · simp at hs
        rename_i hs0
        rw [if_neg hr0, if_neg hs0]
        cases hrec : readRecord ck le (readRaw le data nd ni) data (summarySize nd ni) r with
        | err e => rw [hrec] at hr; simp at hr
        | panic => rw [hrec] at hr; simp at hr
        | ok p =>
          cases hsec : readRecord ck le (readRaw le data nd ni) data (summarySize nd ni) s with
          | err e => rw [hsec] at hs; simp at hs
          | panic => rw [hsec] at hs; simp at hs
          | ok q => rw [(readRecord_key hlen hrec).2 s hk.symm q hsec]

/-! ### C25 -/

/-- Loading a Chebyshev segment never reads outside the file: in release builds on any input, in
debug builds unless the descriptor's start word is within three of `usize::MAX`. -/
theorem spk_segment_no_panic {ck : Bool} {data : Bytes} {s : Summary}
    (h : ck = false ∨ s.startWord + 3 < 2 ^ 64) : readSegment ck data s ≠ .panic :=
  readSegment_ne_panic h

/-- Such a start word comes from a summary with start and end word -1: debug builds panic. -/
theorem spk_segment_debug_panic :
    readSegment true [] ⟨0, 0, 399, 3, 1, 2, iToUsize (-1), iToUsize (-1)⟩ = .panic := by
  have : iToUsize (-1) = 2 ^ 64 - 1 := by unfold iToUsize; omega
  unfold readSegment
  simp only [this]
  rw [if_neg (by norm_num), if_neg (by norm_num)]
  have : (addU true (2 ^ 64 - 1) 3 : Res Err Nat) = .panic := by
    unfold addU; rw [if_neg (by norm_num)]; rfl
  rw [this]; rfl

/-- The reader succeeds exactly on segments laid out as the format prescribes, and then returns the
coefficient words of the file: records x record size of them, each at its place. -/
theorem spk_segment_iff_layout {ck : Bool} {data : Bytes} {s : Summary} {d : SegmentData}
    (hs : s.startWord + 3 < 2 ^ 64) (he : s.endWord < 2 ^ 64) :
    readSegment ck data s = .ok d ↔ d.dataType = s.dataType ∧
      ChebLayout data s.startWord s.endWord s.dataType d.init d.intlen d.rsize d.ncoeff d.nRecords
        d.records := readSegment_ok_iff hs he

/-- The same reading, for any descriptor of a file that fits in memory. -/
theorem spk_segment_table {ck : Bool} {data : Bytes} {s : Summary} {d : SegmentData}
    (hlen : data.length < 2 ^ 63) (h : readSegment ck data s = .ok d) :
    d.records.length = d.nRecords * d.rsize ∧
      ChebLayout data s.startWord s.endWord s.dataType d.init d.intlen d.rsize d.ncoeff d.nRecords
        d.records := by
  have hb : s.startWord ≤ s.endWord ∧ s.endWord ≤ data.length / 8 := by
    unfold readSegment at h
    split at h
    · simp at h
    split at h
    · simp at h
    obtain ⟨lim, _, h⟩ := bind_eq_ok h
    split at h
    · simp at h
    obtain ⟨u, hu, h⟩ := bind_eq_ok h
    exact ⟨by omega, (ensureWord_ok_iff.mp hu).2⟩
  have := (readSegment_ok_iff (by omega) (by omega)).mp h
  exact ⟨this.2.count, this.2⟩

/-- The segments of an indexed kernel are the supported summaries of the file, in file order, with
their coefficient tables. -/
theorem spk_index_segments {ck : Bool} {data : Bytes} (hlen : data.length < 2 ^ 63) :
    ∀ {sums : List Summary} {l : List IndexedSegment}, indexLoop ck data sums = .ok l →
      List.Forall₂ (fun (g : IndexedSegment) (s : Summary) => g.target = s.target ∧
        g.center = s.center ∧ g.frame = s.frame ∧ g.startEt = s.startEt ∧ g.endEt = s.endEt ∧
        ChebLayout data s.startWord s.endWord s.dataType g.data.init g.data.intlen g.data.rsize
          g.data.ncoeff g.data.nRecords g.data.records) l
        (sums.filter (fun s => s.frame = 1 ∧ (s.dataType = 2 ∨ s.dataType = 3)))
  | [], l, h => by
    simp only [indexLoop, Res.ok.injEq] at h
    subst h; simp
  | s :: rest, l, h => by
    unfold indexLoop at h
    split at h
    · rename_i hc
      rw [List.filter_cons_of_neg (by simp; tauto)]
      exact spk_index_segments hlen h
    · rename_i hc
      rw [List.filter_cons_of_pos (by simp; tauto)]
      obtain ⟨d, hd, h⟩ := bind_eq_ok h
      obtain ⟨ds, hds, h⟩ := bind_eq_ok h
      injection h with h
      subst h
      exact List.Forall₂.cons ⟨rfl, rfl, rfl, rfl, rfl, (spk_segment_table hlen hd).2⟩
        (spk_index_segments hlen hds)

/-- `segment.rs` checks no bounds: any descriptor that ends past the file makes it panic. -/
theorem spk_kernel_chebyshev_panics {ck : Bool} {data : Bytes} {s : Summary} {comp : Nat}
    (h1 : 4 ≤ s.endWord) (h2 : data.length < s.endWord * 8) :
    readChebyshev ck data s comp = .panic := readChebyshev_panics h1 h2

/-- A case of it. -/
example : readChebyshev false (List.replicate 64 0) ⟨0, 0, 399, 3, 1, 2, 1, 9⟩ 3 = .panic :=
  spk_kernel_chebyshev_panics (by norm_num) (by simp)

/-- C25 for `segment.rs` as far as it holds: with the descriptor inside the file nothing panics.
Missing: descriptors that leave the file, which the function does not reject. -/
theorem spk_kernel_chebyshev_no_panic_partial {ck : Bool} {data : Bytes} {s : Summary} {comp : Nat}
    (h1 : 1 ≤ s.startWord) (h2 : s.endWord * 8 ≤ data.length)
    (h3 : s.startWord + 40960000000 < 2 ^ 64) : readChebyshev ck data s comp ≠ .panic :=
  readChebyshev_ne_panic h1 h2 h3

example : (1 : Nat) ≤ (⟨0, 0, 399, 3, 1, 2, 1, 8⟩ : Summary).startWord ∧
    (⟨0, 0, 399, 3, 1, 2, 1, 8⟩ : Summary).endWord * 8 ≤ (List.replicate 64 (0 : UInt8)).length := by
  simp

/-- A successful read returns records x record size words, those of the file. -/
theorem spk_kernel_chebyshev_table {ck : Bool} {data : Bytes} {s : Summary} {comp : Nat}
    {c : ChebSegment} (h3 : s.startWord + 40960000000 < 2 ^ 64)
    (h : readChebyshev ck data s comp = .ok c) :
    c.records.length = c.nRecords * c.rsize ∧ 1 ≤ c.nRecords ∧ 5 ≤ c.rsize ∧
      c.rsize ≤ 4096 ∧ 0 < c.intlen ∧ c.components = comp ∧
      (0 < comp → c.rsize = 2 + comp * c.ncoeff) ∧
      s.startWord + c.nRecords * c.rsize ≤ s.endWord + 1 ∧
      ∀ i (h : i < c.records.length), WordAt data (s.startWord + i) c.records[i] :=
  readChebyshev_ok h3 h

/-- Discrete-state segments: a start word of zero panics. -/
theorem spk_kernel_discrete_panics {ck : Bool} {data : Bytes} {s : Summary} {t : Int}
    (h : s.startWord = 0) (h2 : 8 ≤ s.endWord) (h3 : s.endWord < 2 ^ 64 - 1) :
    readDiscrete ck data s t = .panic := readDiscrete_panics h h2 h3

/-- Inside the file, and with a record count below `2^61`, discrete-state segments are read without
panic. -/
theorem spk_kernel_discrete_no_panic_partial {ck : Bool} {data : Bytes} {s : Summary} {t : Int}
    (h1 : 1 ≤ s.startWord) (h2 : s.endWord * 8 ≤ data.length)
    (h3 : ∀ x, WordAt data s.endWord x → fToUsize x < 2 ^ 61)
    (h4 : ∀ x, WordAt data (s.endWord - 1) x → fToUsize x < 2 ^ 64 - 1) :
    readDiscrete ck data s t ≠ .panic := readDiscrete_ne_panic h1 h2 h3 h4

/-- What a discrete-state segment holds after loading. -/
theorem spk_kernel_discrete_table {ck : Bool} {data : Bytes} {s : Summary} {t : Int}
    {d : DiscreteSegment} (ht : t = 9 ∨ t = 13) (h : readDiscrete ck data s t = .ok d) :
    1 ≤ d.nRecords ∧ d.states.length = d.nRecords * 6 ∧ d.epochs.length = d.nRecords ∧
      d.epochs.IsChain (· < ·) ∧
      (t = 9 → 1 ≤ d.size ∧ d.size + 1 ≤ d.nRecords) ∧
      (t = 13 → 2 ≤ d.size ∧ d.size ≤ d.nRecords) ∧
      (∀ i (h : i < d.states.length), ∃ w, WordAt data (s.startWord + i) w ∧ fVal w = some d.states[i]) ∧
      (∀ i (h : i < d.epochs.length),
        ∃ w, WordAt data (s.startWord + d.nRecords * 6 + i) w ∧ fVal w = some d.epochs[i]) :=
  readDiscrete_ok ht h

/-- Data words are read little-endian whatever the byte order of the file: a big-endian word `x` is
read as its byte reversal. -/
theorem spk_big_endian_words_reversed {data : Bytes} {w : Nat} {x : BitVec 64} (h1 : 1 ≤ w)
    (h : At data ((w - 1) * 8) (f64b false x)) :
    readWord data w = .ok (BitVec.ofNat 64 (leNat (f64b true x).reverse)) := by
  have hs := h.slice
  rw [f64b_length] at hs
  unfold readWord readF64
  rw [if_neg (by omega), hs]
  simp only [Option.map_some, Res.orPanic, bytesNat, if_true]
  rfl

/-- So 1.0 in a big-endian file is not read as 1.0. -/
theorem spk_big_endian_witness :
    readWord (f64b false 0x3FF0000000000000#64) 1 = .ok 0x000000000000F03F#64 := by
  rw [spk_big_endian_words_reversed (x := 0x3FF0000000000000#64) (by norm_num) ⟨[], [], by simp, rfl⟩]
  congr 1

end Verif.Daf
