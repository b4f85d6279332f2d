import Verif.Clock
import Verif.SV.IeeeInt
import Mathlib.Algebra.Order.Round
import Mathlib.Data.Rat.Floor

/-
  C73: times and spans of time.
-/
namespace LFA
namespace Clock
open SV

/-- The value of a double. -/
abbrev value (x : BitVec 64) : ℚ := Fmt.double.val x

/-- How far a rounded number may be away. -/
theorem near {q : ℚ} {x : BitVec 64} (h : Fmt.double.Nearest q x) (k : Nat) (hk : k ≤ 1000) (h0 : 0 ≤ q) (hq : q * 2 ^ k + 1 / 2 < 2 ^ 53) :
    |value x - q| ≤ 1 / 2 / 2 ^ k := by
  have hp : (0 : ℚ) < 2 ^ k := by positivity
  have hr : 0 ≤ round (q * 2 ^ k) := by
    rw [round_eq]
    apply Int.floor_nonneg.2
    positivity
  obtain ⟨n, hn⟩ := Int.eq_ofNat_of_zero_le hr
  have ha := abs_sub_round (q * 2 ^ k)
  rw [hn] at ha
  have ha' := abs_le.1 ha
  have hn53 : n < 2 ^ 53 := by
    have : ((n : ℤ) : ℚ) < 2 ^ 53 := by linarith [ha'.1]
    exact_mod_cast this
  obtain ⟨y, hy, e⟩ := Fmt.exists_val (f := Fmt.double) (w := 64) rfl n (-(k : ℤ)) hn53 (by simp [Fmt.bias, Fmt.double]; omega)
    (by simp [Fmt.bias, Fmt.double]; omega)
  refine (h.2 y hy).trans ?_
  rw [e, zpow_neg, zpow_natCast, abs_sub_comm]
  have : q - (n : ℚ) * (2 ^ k)⁻¹ = (q * 2 ^ k - n) / 2 ^ k := by field_simp
  rw [this, abs_div, abs_of_pos hp]
  exact div_le_div_of_nonneg_right (by simpa using ha) hp.le

theorem exactNat {n : Nat} {x : BitVec 64} (h : Fmt.double.Nearest n x) (hn : n < 2 ^ 53) : value x = n := by
  obtain ⟨y, hy, e⟩ := Fmt.exists_val (f := Fmt.double) (w := 64) rfl n 0 hn (by simp [Fmt.bias, Fmt.double]) (by simp [Fmt.bias, Fmt.double])
  exact h.exact hy (by rw [e]; simp)

/-- What the clock shows, in seconds. -/
def exact (sec usec : Nat) : ℚ := sec + usec / 10 ^ 6

/-- C73: the time is the one shown by the clock, up to a quarter of a microsecond. -/
theorem C73_accuracy (sec usec : Nat) (hs : sec < 2 ^ 32) (hu : usec < 10 ^ 6) (t : BitVec 64) (h : Time sec usec t) :
    |value t - exact sec usec| ≤ 1 / 4 / 10 ^ 6 := by
  obtain ⟨c, u, p, s, hc, hu', hp, hs', ht⟩ := h
  have eu := exactNat hu' (by omega)
  have es := exactNat hs' (by omega)
  have ec := near hc 72 (by norm_num) (by norm_num) (by norm_num)
  have hu1 : (usec : ℚ) ≤ 999999 := by exact_mod_cast (by omega : usec ≤ 999999)
  have hu0 : (0 : ℚ) ≤ usec := by positivity
  have hs1 : (sec : ℚ) ≤ 4294967295 := by exact_mod_cast (by omega : sec ≤ 4294967295)
  have hs0 : (0 : ℚ) ≤ sec := by positivity
  unfold exact
  clear hs hu
  generalize (usec : ℚ) = U at *
  generalize (sec : ℚ) = S at *
  change Fmt.double.Nearest (value u * value c) p at hp
  change Fmt.double.Nearest (value s + value p) t at ht
  rw [eu] at hp
  rw [es] at ht
  obtain ⟨c1, c2⟩ := abs_le.1 ec
  have hc0 : 0 ≤ value c := by norm_num at c1 ⊢; linarith
  have hcle : value c ≤ 1 / 10 ^ 6 + 1 / 2 / 2 ^ 72 := by linarith
  have hcge : 1 / 10 ^ 6 - 1 / 2 / 2 ^ 72 ≤ value c := by linarith
  have hq1 : U * value c ≤ U * (1 / 10 ^ 6 + 1 / 2 / 2 ^ 72) := mul_le_mul_of_nonneg_left hcle hu0
  have hq2 : U * (1 / 10 ^ 6 - 1 / 2 / 2 ^ 72) ≤ U * value c := mul_le_mul_of_nonneg_left hcge hu0
  have hq0 : 0 ≤ U * value c := mul_nonneg hu0 hc0
  generalize hQ : U * value c = Q at *
  have ep := near hp 52 (by norm_num) hq0 (by norm_num at *; linarith)
  obtain ⟨p1, p2⟩ := abs_le.1 ep
  have hp0 : 0 ≤ value p := by
    obtain ⟨z, hz, ez⟩ := Fmt.exists_val (f := Fmt.double) (w := 64) rfl 0 0 (by norm_num) (by simp [Fmt.bias, Fmt.double]) (by simp [Fmt.bias, Fmt.double])
    have := hp.2 z hz
    rw [ez] at this
    simp only [Nat.cast_zero, zero_mul, zero_sub, abs_neg, abs_of_nonneg hq0] at this
    have := abs_le.1 this
    change -Q ≤ value p - Q ∧ _ at this
    linarith [this.1]
  have et := near ht 21 (by norm_num) (by linarith) (by norm_num at *; linarith)
  obtain ⟨t1, t2⟩ := abs_le.1 et
  rw [abs_le]
  constructor <;> norm_num at * <;> linarith

/-- C73: a later reading of the clock gives a greater time. -/
theorem C73_monotone (sec usec sec' usec' : Nat) (hs : sec < 2 ^ 32) (hu : usec < 10 ^ 6) (hs' : sec' < 2 ^ 32) (hu' : usec' < 10 ^ 6)
    (hlt : sec < sec' ∨ sec = sec' ∧ usec < usec') (t t' : BitVec 64) (h : Time sec usec t) (h' : Time sec' usec' t') : value t < value t' := by
  have a := abs_le.1 (C73_accuracy sec usec hs hu t h)
  have b := abs_le.1 (C73_accuracy sec' usec' hs' hu' t' h')
  have key : exact sec usec + 1 / 10 ^ 6 ≤ exact sec' usec' := by
    have : sec * 10 ^ 6 + usec + 1 ≤ sec' * 10 ^ 6 + usec' := by omega
    have : (sec : ℚ) * 10 ^ 6 + usec + 1 ≤ sec' * 10 ^ 6 + usec' := by exact_mod_cast this
    unfold exact
    clear hs hs' hu hu' hlt a b
    generalize (usec : ℚ) = U at *
    generalize (sec : ℚ) = S at *
    generalize (usec' : ℚ) = U' at *
    generalize (sec' : ℚ) = S' at *
    norm_num at *
    linarith
  norm_num at *
  linarith [a.1, a.2, b.1, b.2]

/-- C73: a span of time is the one shown by the clock, up to a microsecond; if the clock has moved on then the span is positive, i.e. rates are finite. -/
theorem C73_span (sec usec sec' usec' : Nat) (hs : sec < 2 ^ 32) (hu : usec < 10 ^ 6) (hs' : sec' < 2 ^ 32) (hu' : usec' < 10 ^ 6)
    (hlt : sec < sec' ∨ sec = sec' ∧ usec < usec') (t t' d : BitVec 64) (h : Time sec usec t) (h' : Time sec' usec' t') (hd : Span t t' d) :
    |value d - (exact sec' usec' - exact sec usec)| < 1 / 10 ^ 6 ∧ 0 < value d := by
  have a := abs_le.1 (C73_accuracy sec usec hs hu t h)
  have b := abs_le.1 (C73_accuracy sec' usec' hs' hu' t' h')
  have key : exact sec usec + 1 / 10 ^ 6 ≤ exact sec' usec' := by
    have : sec * 10 ^ 6 + usec + 1 ≤ sec' * 10 ^ 6 + usec' := by omega
    have : (sec : ℚ) * 10 ^ 6 + usec + 1 ≤ sec' * 10 ^ 6 + usec' := by exact_mod_cast this
    unfold exact
    clear hs hs' hu hu' hlt a b
    generalize (usec : ℚ) = U at *
    generalize (sec : ℚ) = S at *
    generalize (usec' : ℚ) = U' at *
    generalize (sec' : ℚ) = S' at *
    norm_num at *
    linarith
  have h0 : 0 ≤ exact sec usec := by unfold exact; positivity
  have h1 : exact sec' usec' ≤ 4294967295 + 999999 / 10 ^ 6 := by
    have hu1 : (usec' : ℚ) ≤ 999999 := by exact_mod_cast (by omega : usec' ≤ 999999)
    have hs1 : (sec' : ℚ) ≤ 4294967295 := by exact_mod_cast (by omega : sec' ≤ 4294967295)
    unfold exact
    clear hs hs' hu hu' hlt a b
    generalize (usec : ℚ) = U at *
    generalize (sec : ℚ) = S at *
    generalize (usec' : ℚ) = U' at *
    generalize (sec' : ℚ) = S' at *
    norm_num at *
    linarith
  unfold Span at hd
  change Fmt.double.Nearest (value t' - value t) d at hd
  have hq : 1 / 2 / 10 ^ 6 ≤ value t' - value t := by norm_num at *; linarith [a.1, a.2, b.1, b.2]
  have hq2 : value t' - value t ≤ 4294967295 + 999999 / 10 ^ 6 + 1 / 2 / 10 ^ 6 := by norm_num at *; linarith [a.1, a.2, b.1, b.2]
  have hq3 : |(value t' - value t) - (exact sec' usec' - exact sec usec)| ≤ 1 / 2 / 10 ^ 6 := by
    rw [abs_le]
    norm_num at *
    constructor <;> linarith [a.1, a.2, b.1, b.2]
  generalize value t' - value t = q at *
  have ed := abs_le.1 (near hd 21 (by norm_num) (by norm_num at *; linarith) (by norm_num at *; linarith))
  have e3 := abs_le.1 hq3
  constructor
  · rw [abs_lt]
    norm_num at *
    constructor <;> linarith [ed.1, ed.2, e3.1, e3.2]
  · obtain ⟨z, hz, ez⟩ := Fmt.exists_val (f := Fmt.double) (w := 64) rfl 1 (-21) (by norm_num [Fmt.double]) (by simp [Fmt.bias, Fmt.double]) (by simp [Fmt.bias, Fmt.double])
    have hle := hd.2 z hz
    have hz' : Fmt.double.val z = 1 / 2097152 := by rw [ez]; norm_num
    rw [hz'] at hle
    have hneg : (1 : ℚ) / 2097152 - q ≤ 0 := by norm_num at *; linarith
    rw [abs_of_nonpos hneg] at hle
    have := abs_le.1 hle
    change -_ ≤ value d - q ∧ _ at this
    norm_num at *
    linarith [this.1]

/-- There is a time for each reading of the clock, and a span for each pair of times. -/
theorem exists_time (sec usec : Nat) : ∃ t, Time sec usec t := by
  have hz : ∃ x : BitVec 64, Fmt.double.finite x := ⟨0, by unfold Fmt.finite; decide⟩
  obtain ⟨c, hc⟩ := exists_nearest hz (1 / 10 ^ 6)
  obtain ⟨u, hu⟩ := exists_nearest hz (usec : ℚ)
  obtain ⟨p, hp⟩ := exists_nearest hz (Fmt.double.val u * Fmt.double.val c)
  obtain ⟨s, hs⟩ := exists_nearest hz (sec : ℚ)
  obtain ⟨t, ht⟩ := exists_nearest hz (Fmt.double.val s + Fmt.double.val p)
  exact ⟨t, c, u, p, s, hc, hu, hp, hs, ht⟩

theorem exists_span (t t' : BitVec 64) : ∃ d, Span t t' d := exists_nearest ⟨0, by unfold Fmt.finite; decide⟩ _

/-- Two readings, a microsecond apart. -/
example : ∃ t t' d : BitVec 64, Time 1600000000 999999 t ∧ Time 1600000001 0 t' ∧ Span t t' d ∧ 0 < value d := by
  obtain ⟨t, ht⟩ := exists_time 1600000000 999999
  obtain ⟨t', ht'⟩ := exists_time 1600000001 0
  obtain ⟨d, hd⟩ := exists_span t t'
  exact ⟨t, t', d, ht, ht', hd, (C73_span 1600000000 999999 1600000001 0 (by norm_num) (by norm_num) (by norm_num) (by norm_num) (.inl (by norm_num))
    t t' d ht ht' hd).2⟩

example : ∃ t t' : BitVec 64, value t < value t' := by
  obtain ⟨t, ht⟩ := exists_time 1600000000 999999
  obtain ⟨t', ht'⟩ := exists_time 1600000001 0
  exact ⟨t, t', C73_monotone 1600000000 999999 1600000001 0 (by norm_num) (by norm_num) (by norm_num) (by norm_num) (.inl (by norm_num)) t t' ht ht'⟩

end Clock
end LFA
