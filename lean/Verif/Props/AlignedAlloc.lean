import Verif.AlignedAlloc

/-
  Properties of aligned_allocator (C35, C36).
-/
set_option linter.unusedVariables false
namespace LFA
open AA

/-- C35, arithmetic: the objects and the pointer in front of them are inside of the chunk, and the block is aligned, for each
    address which the underlying allocator may return. Missing: alignments below 8 (C35_false). -/
theorem C35_block_partial (P : Par) (h8 : 8 ≤ P.align) (n c : Nat) (hn : n * P.sz + P.align + 8 < 2 ^ 64) :
    (c + correction P c) % P.align = 0 ∧ c ≤ c + correction P c - 8 ∧
      c + correction P c - 8 + 8 = c + correction P c ∧ c + correction P c + n * P.sz ≤ c + upsize P n := by
  obtain ⟨h1, h2, h3⟩ := correction_spec h8 c
  rw [upsize_eq hn]
  exact ⟨h3, by omega, by omega, by omega⟩

/-- C35: for every program which allocates, writes into its blocks and releases them, whatever the (sound) underlying allocator
    answers: no operation touches memory outside of the chunks or frees anything but a chunk obtained (with its size), each block
    is aligned, and blocks which are in use at the same time do not overlap. Missing: alignments that are no multiple of the size
    of a pointer, except 4: none of these work (C35_iff). -/
theorem C35_history_partial (P : Par) (h8 : 8 ∣ P.align ∨ P.align = 4) (ha : 0 < P.align) (ops : List Op)
    (hleg : Legal P St.init (fun _ => none) ops) :
    ∃ s' o' outs, run P St.init ops = .ok (s', outs) ∧ Run P (fun _ => none) ops outs o' := by
  obtain ⟨s', o', outs, h1, h2, _⟩ := run_ok h8 ha ops Inv.init hleg
  exact ⟨s', o', outs, h1, h2⟩

/-- C35: when a program has released everything, then the underlying allocator has got back everything: there are no leaks. -/
theorem C35_leak_partial (P : Par) (h8 : 8 ∣ P.align ∨ P.align = 4) (ha : 0 < P.align) (ops : List Op)
    (hleg : Legal P St.init (fun _ => none) ops) :
    ∃ s' o' outs, run P St.init ops = .ok (s', outs) ∧ Run P (fun _ => none) ops outs o' ∧
      ((∀ p, o' p = none) → ∀ c, s'.chunk c = none) := by
  obtain ⟨s', o', outs, h1, h2, hI⟩ := run_ok h8 ha ops Inv.init hleg
  refine ⟨s', o', outs, h1, h2, fun hall c => ?_⟩
  cases hx : s'.chunk c with
  | none => rfl
  | some n =>
    obtain ⟨p, m, q, _⟩ := hI.used c n hx
    rw [hall p] at q; cases q

/-- C35: `deallocate` returns exactly the chunk which `allocate` has obtained, with the same size, even if the owner has
    overwritten all of the block in between. -/
theorem C35_roundtrip_partial (P : Par) (h8 : 8 ∣ P.align) (ha : 0 < P.align) (n c : Nat) (hc : c ≠ 0)
    (hn : n * P.sz + P.align + 8 < 2 ^ 64) (s : St) (hs : ∀ x, s.chunk x = none) (mem' : Nat → Byte) :
    ∃ s' p, allocate P s n (some c) = .ok (s', .ptr p) ∧
      ((∀ a, a < p ∨ p + n * P.sz ≤ a → mem' a = s'.mem a) →
        deallocate P { s' with mem := mem' } p n = sysFree { s' with mem := mem' } c (upsize P n) ∧
        ∃ s'', deallocate P { s' with mem := mem' } p n = .ok s'' ∧ ∀ x, s''.chunk x = none) := by
  have ha8 : 8 ≤ P.align := Nat.le_of_dvd ha h8
  obtain ⟨k1, k2, k3⟩ := correction_spec ha8 c
  have hup := upsize_eq hn
  generalize hret : c + correction P c = ret at *
  let s1 : St := { s with chunk := fun x => if x = c then some (upsize P n) else s.chunk x }
  have hc1 : s1.chunk c = some (upsize P n) := by simp [s1]
  have halign : (ret - 8) % 8 = 0 := by
    obtain ⟨q, hq⟩ := h8
    have h1 := Nat.div_add_mod ret P.align
    rw [k3, Nat.add_zero, hq, Nat.mul_assoc] at h1
    omega
  have hval : valid s1 (ret - 8) 8 = true := valid_of hc1 (by omega) (by omega)
  have hst : storePtr s1 (ret - 8) c = .ok { s1 with
      mem := fun b => if ret - 8 ≤ b ∧ b < ret - 8 + 8 then some (c, b - (ret - 8)) else s1.mem b } := by
    unfold storePtr; rw [if_pos ⟨halign, hval⟩]
  refine ⟨{ s1 with mem := fun b => if ret - 8 ≤ b ∧ b < ret - 8 + 8 then some (c, b - (ret - 8)) else s1.mem b }, ret, ?_, ?_⟩
  · simp only [allocate, if_neg hc, hret]
    rw [if_neg (by omega)]
    show (match storePtr s1 (ret - 8) c with | .error u => _ | .ok s => _) = _
    rw [hst]
  · intro hm
    have hm' : ∀ i, i < 8 → mem' (ret - 8 + i) = some (c, i) := by
      intro i hi
      rw [hm _ (.inl (by omega))]
      show (if _ then _ else _) = _
      rw [if_pos (by omega)]; congr 2; omega
    have hval' : valid ({ s1 with mem := mem' } : St) (ret - 8) 8 = true := valid_of (c := c) (n := upsize P n) hc1 (by omega) (by omega)
    have hload : loadPtr ({ s1 with mem := mem' } : St) (ret - 8) = .ok c := by
      unfold loadPtr
      rw [if_pos ⟨halign, hval'⟩]
      have h0 := hm' 0 (by omega)
      rw [show ret - 8 + 0 = ret - 8 from rfl] at h0
      show (match mem' (ret - 8) with | none => _ | some (c, _) => _) = _
      rw [h0]
      simp only
      rw [if_pos]
      rw [List.all_eq_true]
      intro i hi
      simp only [decide_eq_true_eq]
      exact hm' i (List.mem_range.1 hi)
    have hd : deallocate P ({ s1 with mem := mem' } : St) ret n = sysFree ({ s1 with mem := mem' } : St) c (upsize P n) := by
      simp only [deallocate]
      rw [if_neg (by omega), if_neg (by omega), hload]
    refine ⟨hd, { s1 with mem := mem', chunk := fun x => if x = c then none else s1.chunk x }, ?_, ?_⟩
    · show deallocate P ({ s1 with mem := mem' } : St) ret n = _
      rw [hd]; simp only [sysFree, if_pos hc1]
    · intro x
      show (if x = c then none else if x = c then _ else s.chunk x) = none
      by_cases hx : x = c
      · rw [if_pos hx]
      · rw [if_neg hx, if_neg hx, hs x]

/-- 64-byte alignment, doubles. -/
def alignedPar : Par := ⟨64, 8⟩

example : 1020 + correction alignedPar 1020 = 1088 := by decide

/-- The hypotheses are met by a program which reuses a chunk. -/
theorem aligned_legal : Legal alignedPar St.init (fun _ => none)
    [.alloc 10 (some 1020), .write 1099 (some (17, 3)), .dealloc 1088 10, .alloc 4 (some 1020)] := by
  have h8 : 8 ∣ alignedPar.align := ⟨8, rfl⟩
  refine ⟨⟨by decide, ?_, fun h => absurd h8 h⟩, ?_⟩
  · rintro c hc _; cases hc
    exact ⟨by decide, fun _ _ h => (nomatch h)⟩
  · intro s1 o1 out1 e1 p1
    have hout : out1 = .ptr 1088 := by
      simp only [step, allocate, if_neg (show (1020 : Nat) ≠ 0 by decide)] at e1
      rw [show 1020 + correction alignedPar 1020 = 1088 from rfl] at e1
      rw [if_neg (by omega)] at e1
      split at e1
      · cases e1
      · cases e1; rfl
    subst hout
    have ho : o1 = fun x => if x = 1088 then some 10 else none := by
      rcases p1 with ⟨h, _⟩ | ⟨h, _⟩ | ⟨p, h, _, _, _, _, _, h2⟩
      · cases h
      · cases h
      · cases h; exact h2
    subst ho
    refine ⟨⟨1088, 10, rfl, by decide, by decide⟩, fun s2 o2 out2 e2 p2 => ?_⟩
    obtain ⟨_, rfl⟩ := p2
    refine ⟨.inr rfl, fun s3 o3 out3 e3 p3 => ?_⟩
    have hs3 : ∀ x, s3.chunk x = none := by
      have h := C35_roundtrip_partial alignedPar ⟨8, rfl⟩ (by decide) 10 1020 (by decide) (by decide) St.init (fun _ => rfl) s2.mem
      obtain ⟨s', p, a1, a2⟩ := h
      have e1' : allocate alignedPar St.init 10 (some 1020) = .ok (s1, .ptr 1088) := e1
      rw [a1] at e1'
      cases e1'
      simp only [step] at e2
      split at e2
      · cases e2
        obtain ⟨_, s'', b1, b2⟩ := a2 (fun a ha => by
          show (if a = 1099 then _ else _) = _
          rw [if_neg]
          have : alignedPar.sz = 8 := rfl
          rw [this] at ha
          omega)
        simp only [step] at e3
        have e4 := congrArg (Except.map (fun s => (s, Out.unit))) b1
        have e5 := e3.symm.trans e4
        cases e5
        exact b2
      · cases e2
    refine ⟨⟨by decide, ?_, fun h => absurd h8 h⟩, fun _ _ _ _ _ => trivial⟩
    rintro c hc _; cases hc
    exact ⟨by decide, fun c' n' h => by rw [hs3] at h; cases h⟩

example : ∃ s' o' outs, run alignedPar St.init
    [.alloc 10 (some 1020), .write 1099 (some (17, 3)), .dealloc 1088 10, .alloc 4 (some 1020)] = .ok (s', outs) ∧
    Run alignedPar (fun _ => none) [.alloc 10 (some 1020), .write 1099 (some (17, 3)), .dealloc 1088 10, .alloc 4 (some 1020)] outs o' :=
  C35_history_partial alignedPar (.inl ⟨8, rfl⟩) (by decide) _ aligned_legal

/-- C35 is false for alignments below the size of a pointer: the pointer is stored in front of the chunk, even if the chunk
    itself is well aligned. -/
theorem C35_false : ∀ n, allocate ⟨2, 2⟩ St.init n (some 4096) = .error .oob := by
  intro n
  simp only [allocate, if_neg (show (4096 : Nat) ≠ 0 by decide)]
  rw [show 4096 + correction ⟨2, 2⟩ 4096 = 4100 from rfl]
  rw [if_neg (by omega)]
  unfold storePtr
  rw [if_neg]
  rintro ⟨h, _⟩
  exact absurd h (by decide)

/-- C35 is false for alignments below the size of a pointer, independent of alignment requirements for the pointer: its first
    byte is not inside of the chunk. -/
theorem C35_false_outside : 4096 + correction ⟨2, 2⟩ 4096 - 8 < 4096 ∧ 4096 + correction ⟨1, 1⟩ 4096 - 8 < 4096 := by decide

/-- C35 is false for alignments that are no multiple of the size of a pointer: the pointer is stored to a misaligned address. -/
theorem C35_false_12 : ∀ n, allocate ⟨12, 4⟩ St.init n (some 4128) = .error .oob := by
  intro n
  simp only [allocate, if_neg (show (4128 : Nat) ≠ 0 by decide)]
  rw [show 4128 + correction ⟨12, 4⟩ 4128 = 4140 from rfl]
  rw [if_neg (by omega)]
  unfold storePtr
  rw [if_neg]
  rintro ⟨h, _⟩
  exact absurd h (by decide)

/-- C35, exactly: `allocate` works for all chunks which `std::allocator` may return (those are aligned for pointers) if and only if
    ALIGNMENT is 4 or a multiple of 8. -/
theorem C35_iff (P : Par) (ha : 0 < P.align) (hal : P.align < 2 ^ 31) :
    (∀ n c, c ≠ 0 → 8 ∣ c → n * P.sz + P.align + 8 < 2 ^ 64 →
      ∃ s' p, allocate P St.init n (some c) = .ok (s', .ptr p) ∧ p % P.align = 0 ∧ c + 8 ≤ p ∧ p + n * P.sz ≤ c + upsize P n) ↔
    (8 ∣ P.align ∨ P.align = 4) := by
  constructor
  · intro h
    obtain ⟨s', p, h1, _⟩ := h 0 (8 * P.align) (by omega) ⟨P.align, rfl⟩ (by omega)
    have hcor : correction P (8 * P.align) = if P.align < 8 then 2 * P.align else P.align := by
      unfold correction
      dsimp only
      rw [Nat.mul_mod_left, Nat.sub_zero]
      split <;> omega
    simp only [allocate, if_neg (show 8 * P.align ≠ 0 by omega)] at h1
    rw [if_neg (by omega)] at h1
    split at h1
    · cases h1
    · rename_i s2 hst
      unfold storePtr at hst
      split at hst
      · rename_i hc
        obtain ⟨hc, hv⟩ := hc
        rw [hcor] at hc
        by_cases h8 : P.align < 8
        · rw [if_pos h8] at hc
          rw [hcor, if_pos h8] at hv
          right
          unfold valid at hv
          simp only [decide_eq_true_eq] at hv
          obtain ⟨c', m, h1, h2, h3⟩ := hv 0 (by omega)
          simp only [St.init] at h1
          split at h1
          · omega
          · cases h1
        · rw [if_neg h8] at hc
          left
          exact Nat.dvd_of_mod_eq_zero (by omega)
      · cases hst
  · intro h8 n c hc hc8 hn
    obtain ⟨k1, k2, k3, k4⟩ := correction_spec' h8 ha c (fun _ => hc8)
    have hup := upsize_eq hn
    generalize hret : c + correction P c = ret at *
    let s1 : St := { St.init with chunk := fun x => if x = c then some (upsize P n) else none }
    have hc1 : s1.chunk c = some (upsize P n) := by simp [s1]
    have hval : valid s1 (ret - 8) 8 = true := valid_of hc1 (by omega) (by omega)
    refine ⟨{ s1 with mem := fun b => if ret - 8 ≤ b ∧ b < ret - 8 + 8 then some (c, b - (ret - 8)) else s1.mem b }, ret, ?_, k3,
      by omega, by omega⟩
    simp only [allocate, if_neg hc, hret]
    rw [if_neg (by omega)]
    show (match storePtr s1 (ret - 8) c with | .error u => _ | .ok s => _) = _
    unfold storePtr
    rw [if_pos ⟨by omega, hval⟩]

/-- Histories for ALIGNMENT 4, which is below the size of a pointer. -/
example : ∃ s' o' outs, run ⟨4, 4⟩ St.init [.alloc 10 (some 1024)] = .ok (s', outs) ∧
    Run ⟨4, 4⟩ (fun _ => none) [.alloc 10 (some 1024)] outs o' :=
  C35_history_partial ⟨4, 4⟩ (.inr rfl) (by decide) _ ⟨⟨by decide, by
    rintro c hc _; cases hc
    exact ⟨by decide, fun _ _ h => (nomatch h)⟩, by rintro _ c hc; cases hc; exact ⟨128, rfl⟩⟩, fun _ _ _ _ _ => trivial⟩

/-- C36, exactly: a request gets enough memory if and only if the size of the chunk can be represented. -/
theorem C36_iff (P : Par) (ha : P.align + 8 < 2 ^ 64) (n : Nat) :
    n * P.sz ≤ upsize P n ↔ n * P.sz + P.align + 8 < 2 ^ 64 := by
  constructor
  · intro h
    have h1 : upsize P n < 2 ^ 64 := Nat.mod_lt _ (by decide)
    unfold upsize grace at h h1
    rw [Nat.mod_eq_of_lt ha, Nat.mod_eq_of_lt (show n * P.sz < 2 ^ 64 by omega)] at h
    by_cases hlt : n * P.sz + P.align + 8 < 2 ^ 64
    · exact hlt
    · rw [Nat.mod_eq_sub_mod (by omega)] at h
      have := Nat.mod_le (n * P.sz + (P.align + 8) - 2 ^ 64) (2 ^ 64)
      omega
  · intro h; rw [upsize_eq h]; omega

example : ¬ (2 ^ 61 * 8 ≤ upsize ⟨64, 8⟩ (2 ^ 61)) ∧ (2 ^ 60 * 8 ≤ upsize ⟨64, 8⟩ (2 ^ 60)) :=
  ⟨fun h => absurd ((C36_iff ⟨64, 8⟩ (by decide) (2 ^ 61)).1 h) (by decide), (C36_iff ⟨64, 8⟩ (by decide) (2 ^ 60)).2 (by decide)⟩

/-- C36: requests whose size fits are served with enough memory. Missing: requests that do not fit are not rejected (C36_false). -/
theorem C36_partial (P : Par) (n : Nat) (hn : n * P.sz + P.align + 8 < 2 ^ 64) :
    n * P.sz ≤ upsize P n ∧ upsize P n < 2 ^ 64 := by
  rw [upsize_eq hn]; omega

/-- The statement of C36: an allocation which reports success provides memory for all objects. -/
def AllocEnough (P : Par) : Prop :=
  ∀ n c s' p, n < 2 ^ 64 → allocate P St.init n (some c) = .ok (s', .ptr p) → p ≠ 0 → ∃ m, s'.chunk c = some m ∧ n * P.sz ≤ m

/-- C36 is false: for each element type of more than one byte there is a number of elements for which the size of the chunk wraps
    around: `allocate` asks for just a few bytes, and reports success when it gets them. -/
theorem C36_false (P : Par) (h8 : 8 ∣ P.align) (ha : 0 < P.align) (hal : P.align < 2 ^ 31) (hsz : 1 < P.sz) (hsz' : P.sz < 2 ^ 31) :
    ¬ AllocEnough P := by
  intro hall
  have ha8 : 8 ≤ P.align := Nat.le_of_dvd ha h8
  let n := (2 ^ 64 + P.sz - 1) / P.sz
  have hd : P.sz * ((2 ^ 64 + P.sz - 1) / P.sz) + (2 ^ 64 + P.sz - 1) % P.sz = 2 ^ 64 + P.sz - 1 := Nat.div_add_mod _ _
  have hm : (2 ^ 64 + P.sz - 1) % P.sz < P.sz := Nat.mod_lt _ (by omega)
  have hn1 : 2 ^ 64 ≤ n * P.sz := by rw [Nat.mul_comm]; show 2 ^ 64 ≤ P.sz * ((2 ^ 64 + P.sz - 1) / P.sz); omega
  have hn2 : n * P.sz < 2 ^ 64 + P.sz := by rw [Nat.mul_comm]; show P.sz * ((2 ^ 64 + P.sz - 1) / P.sz) < _; omega
  have hn3 : n < 2 ^ 64 := by
    rcases Nat.lt_or_ge n (2 ^ 64) with h | h
    · exact h
    · have := Nat.mul_le_mul h (show 2 ≤ P.sz by omega)
      omega
  have hup : upsize P n = n * P.sz - 2 ^ 64 + P.align + 8 := by
    unfold upsize grace
    rw [Nat.mod_eq_sub_mod hn1, Nat.mod_eq_of_lt (show n * P.sz - 2 ^ 64 < 2 ^ 64 by omega),
      Nat.mod_eq_of_lt (show P.align + 8 < 2 ^ 64 by omega), Nat.mod_eq_of_lt (by omega)]
    omega
  generalize n = n at *
  obtain ⟨k1, k2, k3⟩ := correction_spec ha8 4096
  generalize hret : 4096 + correction P 4096 = ret at *
  let s1 : St := { St.init with chunk := fun x => if x = 4096 then some (upsize P n) else none }
  have hc1 : s1.chunk 4096 = some (upsize P n) := by simp [s1]
  have halign : (ret - 8) % 8 = 0 := by
    obtain ⟨q, hq⟩ := h8
    have h1 := Nat.div_add_mod ret P.align
    rw [k3, Nat.add_zero, hq, Nat.mul_assoc] at h1
    omega
  have hval : valid s1 (ret - 8) 8 = true := valid_of hc1 (by omega) (by omega)
  have hst : storePtr s1 (ret - 8) 4096 = .ok { s1 with
      mem := fun b => if ret - 8 ≤ b ∧ b < ret - 8 + 8 then some (4096, b - (ret - 8)) else s1.mem b } := by
    unfold storePtr; rw [if_pos ⟨halign, hval⟩]
  obtain ⟨m, e1, e2⟩ := hall n 4096 { s1 with
      mem := fun b => if ret - 8 ≤ b ∧ b < ret - 8 + 8 then some (4096, b - (ret - 8)) else s1.mem b } ret hn3 (by
    simp only [allocate, if_neg (show (4096 : Nat) ≠ 0 by decide), hret]
    rw [if_neg (by omega)]
    show (match storePtr s1 (ret - 8) 4096 with | .error u => _ | .ok s => _) = _
    rw [hst]) (by omega)
  have : m = upsize P n := by
    have := hc1.symm.trans e1
    cases this; rfl
  omega

example : ¬ AllocEnough ⟨64, 8⟩ := C36_false ⟨64, 8⟩ ⟨8, rfl⟩ (by decide) (by decide) (by decide) (by decide)

/-- C36 is false for bytes, too: the size of the chunk is zero, and the pointer is written to memory which is not ours. -/
theorem C36_false_bytes (P : Par) (hal : P.align < 2 ^ 31) (hsz : P.sz = 1) (c : Nat) (hc : c ≠ 0) :
    upsize P (2 ^ 64 - P.align - 8) = 0 ∧ allocate P St.init (2 ^ 64 - P.align - 8) (some c) = .error .oob := by
  have hup : upsize P (2 ^ 64 - P.align - 8) = 0 := by
    unfold upsize grace
    rw [hsz, Nat.mul_one, Nat.mod_eq_of_lt (show 2 ^ 64 - P.align - 8 < 2 ^ 64 by omega),
      Nat.mod_eq_of_lt (show P.align + 8 < 2 ^ 64 by omega)]
    rw [show 2 ^ 64 - P.align - 8 + (P.align + 8) = 2 ^ 64 by omega]
  refine ⟨hup, ?_⟩
  simp only [allocate, if_neg hc]
  split
  · rfl
  · unfold storePtr
    rw [if_neg]
    rintro ⟨_, h⟩
    unfold valid at h
    simp only [decide_eq_true_eq] at h
    obtain ⟨c', m, h1, h2, h3⟩ := h 0 (by omega)
    simp only [St.init, hup] at h1
    split at h1
    · cases h1; omega
    · cases h1

/-! Cases which meet the hypotheses -/

example := C35_block_partial alignedPar (by decide) 10 1020 (by decide)
example := C35_leak_partial alignedPar (.inl ⟨8, rfl⟩) (by decide) _ aligned_legal
example := C36_partial alignedPar 10 (by decide)
example := C36_false_bytes ⟨64, 1⟩ (by decide) rfl 4096 (by decide)

end LFA
