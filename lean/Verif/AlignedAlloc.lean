import Verif.Base

/-
  aligned_allocator (aligned_allocator.hpp) on top of std::allocator<char>, with flat 64-bit addresses.
-/
set_option linter.unusedVariables false
namespace LFA.AA

/-- Template parameters of `aligned_allocator<T, ALIGNMENT>`: `sz` is `sizeof(T)`. -/
structure Par where
  align : Nat
  sz : Nat

/-- Content of a byte: byte `i` of a pointer to `c` is `some (c, i)`, everything else is `none`. -/
abbrev Byte := Option (Nat × Nat)

/-- The chunks which `std::allocator<char>` has handed out (address ↦ size), and the memory. -/
structure St where
  chunk : Nat → Option Nat
  mem : Nat → Byte

/-- No chunks. -/
def St.init : St := ⟨fun _ => none, fun _ => none⟩

variable (P : Par)

/-- `graceOffset()` (aligned_allocator.hpp:135-138); `sizeof(char*)` is 8. -/
def grace : Nat := (P.align + 8) % 2 ^ 64

/-- `upsize(n)` (aligned_allocator.hpp:140-143), in `size_t` arithmetic. -/
def upsize (n : Nat) : Nat := (n * P.sz % 2 ^ 64 + grace P) % 2 ^ 64

/-- `correction` (aligned_allocator.hpp:77-81). -/
def correction (c : Nat) : Nat :=
  let offset := c % P.align
  let correction := P.align - offset
  if correction < 8 then correction + P.align else correction

/-- The byte at address `a` belongs to a live chunk. -/
def inChunk (s : St) (a : Nat) : Prop := ∃ c n, s.chunk c = some n ∧ c ≤ a ∧ a < c + n

/-- All bytes of `[a, a + len)` belong to live chunks. Decided classically: this is the contract of the memory, not code. -/
noncomputable def valid (s : St) (a len : Nat) : Bool := by
  classical exact decide (∀ i, i < len → inChunk s (a + i))

/-- `*reinterpret_cast<char**>(a) = c`: out of bounds or misaligned stores are undefined behaviour. -/
noncomputable def storePtr (s : St) (a c : Nat) : Except UB St :=
  if a % 8 = 0 ∧ valid s a 8 = true then
    .ok { s with mem := fun b => if a ≤ b ∧ b < a + 8 then some (c, b - a) else s.mem b }
  else .error .oob

/-- Reads `*reinterpret_cast<char**>(a)`; the bytes have to be those of one pointer. -/
noncomputable def loadPtr (s : St) (a : Nat) : Except UB Nat :=
  if a % 8 = 0 ∧ valid s a 8 = true then
    match s.mem a with
    | none => .error .indet
    | some (c, _) => if (List.range 8).all (fun i => s.mem (a + i) = some (c, i)) then .ok c else .error .indet
  else .error .oob

/-- What `std::allocator<char>().allocate(m)` answers: `none` is `std::bad_alloc`, `some 0` a null pointer, otherwise the address
    of a chunk. -/
abbrev Answer := Option Nat

/-- `std::allocator<char>().deallocate(c, m)`. -/
def sysFree (s : St) (c m : Nat) : Except UB St :=
  if s.chunk c = some m then .ok { s with chunk := fun x => if x = c then none else s.chunk x } else .error .badFree

/-- Outcome of `allocate`. -/
inductive Out where
  | badAlloc
  | ptr (p : Nat)
  | unit
deriving DecidableEq

/-- `allocate(n)` (aligned_allocator.hpp:63-85). -/
noncomputable def allocate (s : St) (n : Nat) (ans : Answer) : Except UB (St × Out) :=
  match ans with
  | none => .ok (s, .badAlloc)
  | some chunk =>
    -- the chunk belongs to the program now
    let s : St := if chunk = 0 then s else { s with chunk := fun x => if x = chunk then some (upsize P n) else s.chunk x }
    if chunk = 0 then .ok (s, .ptr 0)
    else
      let ret := chunk + correction P chunk
      -- ret - 1 of type char**
      if ret < 8 then .error .oob
      else match storePtr s (ret - 8) chunk with
        | .error u => .error u
        | .ok s => .ok (s, .ptr ret)

/-- `deallocate(p, n)` (aligned_allocator.hpp:87-98). -/
noncomputable def deallocate (s : St) (p n : Nat) : Except UB St :=
  if p = 0 then .ok s
  else if p < 8 then .error .oob
  else match loadPtr s (p - 8) with
    | .error u => .error u
    | .ok actual => sysFree s actual (upsize P n)

/-- What a program does: allocate (the system answers `ans`), deallocate, or write one byte. -/
inductive Op where
  | alloc (n : Nat) (ans : Answer)
  | dealloc (p n : Nat)
  | write (a : Nat) (v : Byte)

/-- Executes one operation; bytes outside of chunks may not be written. -/
noncomputable def step (s : St) : Op → Except UB (St × Out)
  | .alloc n ans => allocate P s n ans
  | .dealloc p n => (deallocate P s p n).map fun s => (s, .unit)
  | .write a v => if valid s a 1 = true then .ok ({ s with mem := fun b => if b = a then v else s.mem b }, .unit) else .error .oob

/-- Executes a program. -/
noncomputable def run (s : St) : List Op → Except UB (St × List Out)
  | [] => .ok (s, [])
  | op :: ops =>
    match step P s op with
    | .error u => .error u
    | .ok (s', out) =>
      match run s' ops with
      | .error u => .error u
      | .ok (s'', outs) => .ok (s'', out :: outs)

/-! ### Specification: a set of disjoint blocks -/

/-- Blocks which the program owns: address ↦ number of objects. -/
abbrev Own := Nat → Option Nat

/-- `std::allocator<char>` answers a request for `m` bytes, given the chunks in use: with memory that is not in use. -/
def AnsOK (chunk : Nat → Option Nat) (m : Nat) (ans : Answer) : Prop :=
  ∀ c, ans = some c → c ≠ 0 → c + m ≤ 2 ^ 64 ∧ ∀ c' n', chunk c' = some n' → n' ≠ 0 → c + m ≤ c' ∨ c' + n' ≤ c

/-- Contracts: the system's answers are sound, the size of the request fits into `size_t` (see C36), blocks are released once, with
    the size they have been allocated with, and only bytes of blocks are written. `std::allocator` returns memory which is aligned for
    pointers (that is needed only if ALIGNMENT is no multiple of their size). -/
def Pre (s : St) (o : Own) : Op → Prop
  | .alloc n ans => n * P.sz + P.align + 8 < 2 ^ 64 ∧ AnsOK s.chunk (n * P.sz + P.align + 8) ans ∧
      (¬ 8 ∣ P.align → ∀ c, ans = some c → 8 ∣ c)
  | .dealloc p n => p = 0 ∨ o p = some n
  | .write a _ => ∃ p n, o p = some n ∧ p ≤ a ∧ a < p + n * P.sz

/-- Effects: a new block is aligned, not null, does not overlap with any other block, and its end is an address. -/
def Post (o : Own) : Op → Own → Out → Prop
  | .alloc n ans, o', out => (ans = none ∧ out = .badAlloc ∧ o' = o) ∨ (ans = some 0 ∧ out = .ptr 0 ∧ o' = o) ∨
      (∃ p, out = .ptr p ∧ p ≠ 0 ∧ p % P.align = 0 ∧ p + n * P.sz ≤ 2 ^ 64 ∧ o p = none ∧
        (∀ p' n', o p' = some n' → p + n * P.sz ≤ p' ∨ p' + n' * P.sz ≤ p) ∧ o' = fun x => if x = p then some n else o x)
  | .dealloc p _, o', out => out = .unit ∧ (p = 0 → o' = o) ∧ (p ≠ 0 → o' = fun x => if x = p then none else o x)
  | .write _ _, o', out => out = .unit ∧ o' = o

/-! ### Proofs -/
variable {P}

theorem upsize_eq {n : Nat} (h : n * P.sz + P.align + 8 < 2 ^ 64) : upsize P n = n * P.sz + P.align + 8 := by
  unfold upsize grace
  rw [Nat.mod_eq_of_lt (show n * P.sz < 2 ^ 64 by omega), Nat.mod_eq_of_lt (show P.align + 8 < 2 ^ 64 by omega),
    Nat.mod_eq_of_lt (by omega)]
  omega

/-- The correction makes room for a pointer, and leads to an aligned address. -/
theorem correction_spec (ha : 8 ≤ P.align) (c : Nat) :
    8 ≤ correction P c ∧ correction P c ≤ P.align + 8 ∧ (c + correction P c) % P.align = 0 := by
  have hlt := Nat.mod_lt c (show 0 < P.align by omega)
  have hd := Nat.div_add_mod c P.align
  have hmod : ∀ k, (c + (P.align - c % P.align) + k * P.align) % P.align = 0 := by
    intro k
    have : c + (P.align - c % P.align) + k * P.align = P.align * (c / P.align + 1 + k) := by
      rw [Nat.mul_add, Nat.mul_add, Nat.mul_one, Nat.mul_comm k]; omega
    rw [this, Nat.mul_mod_right]
  unfold correction
  dsimp only
  split
  · refine ⟨by omega, by omega, ?_⟩
    have := hmod 1
    rw [Nat.one_mul, Nat.add_assoc] at this
    exact this
  · refine ⟨by omega, by omega, ?_⟩
    have := hmod 0
    rw [Nat.zero_mul, Nat.add_zero] at this
    exact this

/-- The same for all alignments which work, and the address is aligned for pointers, too. -/
theorem correction_spec' (hP : 8 ∣ P.align ∨ P.align = 4) (ha : 0 < P.align) (c : Nat) (hc : ¬ 8 ∣ P.align → 8 ∣ c) :
    8 ≤ correction P c ∧ correction P c ≤ P.align + 8 ∧ (c + correction P c) % P.align = 0 ∧ (c + correction P c) % 8 = 0 := by
  rcases hP with h8 | h4
  · obtain ⟨k1, k2, k3⟩ := correction_spec (P := P) (Nat.le_of_dvd ha h8) c
    refine ⟨k1, k2, k3, ?_⟩
    exact Nat.mod_eq_zero_of_dvd (Nat.dvd_trans h8 (Nat.dvd_of_mod_eq_zero k3))
  · obtain ⟨q, rfl⟩ := hc (by rw [h4]; decide)
    have : correction P (8 * q) = 8 := by
      unfold correction
      dsimp only
      rw [h4, if_pos (by omega)]
      omega
    rw [this, h4]
    omega

/-- The invariant: each block lies in a chunk of its own, whose address is stored in front of the block. -/
structure Inv (P : Par) (s : St) (o : Own) : Prop where
  blk : ∀ p n, o p = some n → ∃ c, s.chunk c = some (upsize P n) ∧ upsize P n = n * P.sz + P.align + 8 ∧ c + 8 ≤ p ∧
    p ≤ c + P.align + 8 ∧ (p % P.align = 0 ∧ p % 8 = 0) ∧ c ≠ 0 ∧ ∀ i, i < 8 → s.mem (p - 8 + i) = some (c, i)
  one : ∀ p n p' n' c, o p = some n → o p' = some n' → s.mem (p - 8) = some (c, 0) → s.mem (p' - 8) = some (c, 0) → p = p'
  disj : ∀ c n c' n', s.chunk c = some n → s.chunk c' = some n' → n ≠ 0 → n' ≠ 0 → c = c' ∨ c + n ≤ c' ∨ c' + n' ≤ c
  top : ∀ c n, s.chunk c = some n → c + n ≤ 2 ^ 64
  used : ∀ c n, s.chunk c = some n → ∃ p m, o p = some m ∧ s.mem (p - 8) = some (c, 0)

theorem Inv.init : Inv P St.init (fun _ => none) :=
  ⟨fun _ _ h => (nomatch h), fun _ _ _ _ _ h => (nomatch h), fun _ _ _ _ h => (nomatch h), fun _ _ h => (nomatch h),
    fun _ _ h => (nomatch h)⟩

theorem valid_of {s : St} {c n a len : Nat} (h : s.chunk c = some n) (h1 : c ≤ a) (h2 : a + len ≤ c + n) : valid s a len = true := by
  unfold valid
  simp only [decide_eq_true_eq]
  exact fun i hi => ⟨c, n, h, by omega, by omega⟩

/-- Two blocks do not overlap, bookkeeping included. -/
theorem Inv.apart {s : St} {o : Own} (h : Inv P s o) {p n p' n' : Nat} (hp : o p = some n) (hp' : o p' = some n') (hne : p ≠ p') :
    p + n * P.sz ≤ p' - 8 ∨ p' + n' * P.sz ≤ p - 8 := by
  obtain ⟨c, a1, a2, a3, a4, _, _, a5⟩ := h.blk p n hp
  obtain ⟨c', b1, b2, b3, b4, _, _, b5⟩ := h.blk p' n' hp'
  have m1 := a5 0 (by omega)
  have m2 := b5 0 (by omega)
  rcases h.disj c _ c' _ a1 b1 (by omega) (by omega) with hc | hc | hc
  · subst hc
    exact absurd (h.one p n p' n' c hp hp' m1 m2) hne
  · left; omega
  · right; omega

theorem step_ok (h8 : 8 ∣ P.align ∨ P.align = 4) (ha : 0 < P.align) {s : St} {o : Own} (hI : Inv P s o) (op : Op) (hp : Pre P s o op) :
    ∃ s' o' out, step P s op = .ok (s', out) ∧ Post P o op o' out ∧ Inv P s' o' := by
  cases op with
  | alloc n ans =>
    obtain ⟨hn, hans, hc8⟩ := hp
    cases ans with
    | none => exact ⟨s, o, .badAlloc, rfl, .inl ⟨rfl, rfl, rfl⟩, hI⟩
    | some c =>
      by_cases hc : c = 0
      · subst hc
        exact ⟨s, o, .ptr 0, by simp [step, allocate], .inr (.inl ⟨rfl, rfl, rfl⟩), hI⟩
      · obtain ⟨htop, hdis⟩ := hans c rfl hc
        obtain ⟨k1, k2, k3, k4⟩ := correction_spec' h8 ha c (fun h => hc8 h c rfl)
        have hup := upsize_eq hn
        have hfresh : s.chunk c = none := by
          cases hx : s.chunk c with
          | none => rfl
          | some m =>
            obtain ⟨p, m', q1, q2⟩ := hI.used c m hx
            obtain ⟨c', r1, r2, _, _, _, _, r3⟩ := hI.blk p m' q1
            have : c' = c := by
              have := r3 0 (by omega)
              rw [show p - 8 + 0 = p - 8 from rfl, q2] at this
              simpa using this.symm
            subst this
            rw [r1] at hx
            have := hdis c' _ r1 (by omega)
            omega
        generalize hret : c + correction P c = ret at *
        let s1 : St := { s with chunk := fun x => if x = c then some (upsize P n) else s.chunk x }
        have hc1 : s1.chunk c = some (upsize P n) := by simp [s1]
        have halign : (ret - 8) % 8 = 0 := by omega
        have hval : valid s1 (ret - 8) 8 = true := valid_of hc1 (by omega) (by omega)
        have hst : storePtr s1 (ret - 8) c = .ok { s1 with
            mem := fun b => if ret - 8 ≤ b ∧ b < ret - 8 + 8 then some (c, b - (ret - 8)) else s1.mem b } := by
          unfold storePtr; rw [if_pos ⟨halign, hval⟩]
        have hnone : o ret = none := by
          cases hx : o ret with
          | none => rfl
          | some m =>
            obtain ⟨c', r1, r2, r3, r4, _, _, r5⟩ := hI.blk ret m hx
            have := hdis c' _ r1 (by omega)
            omega
        have hother : ∀ p' n', o p' = some n' → ∃ c', s.chunk c' = some (upsize P n') ∧ c' ≠ c ∧
            (c + (n * P.sz + P.align + 8) ≤ c' ∨ c' + upsize P n' ≤ c) ∧ upsize P n' = n' * P.sz + P.align + 8 ∧ c' + 8 ≤ p' ∧
            p' ≤ c' + P.align + 8 := by
          intro p' n' hp'
          obtain ⟨c', r1, r2, r3, r4, _, _, r5⟩ := hI.blk p' n' hp'
          refine ⟨c', r1, ?_, hdis c' _ r1 (by omega), r2, r3, r4⟩
          rintro rfl; rw [hfresh] at r1; cases r1
        have hdj : ∀ p' n', o p' = some n' → ret + n * P.sz ≤ p' - 8 ∨ p' + n' * P.sz ≤ ret - 8 := by
          intro p' n' hp'
          obtain ⟨c', r1, _, r2, r3, r4, r5⟩ := hother p' n' hp'
          omega
        refine ⟨{ s1 with mem := fun b => if ret - 8 ≤ b ∧ b < ret - 8 + 8 then some (c, b - (ret - 8)) else s1.mem b },
          fun x => if x = ret then some n else o x, .ptr ret, ?_, ?_, ?_⟩
        · simp only [step, allocate, if_neg hc, hret]
          rw [if_neg (by omega)]
          show (match storePtr s1 (ret - 8) c with | .error u => _ | .ok s => _) = _
          rw [hst]
        · refine .inr (.inr ⟨ret, rfl, by omega, k3, by omega, hnone, ?_, rfl⟩)
          intro p' n' hp'
          have := hdj p' n' hp'
          omega
        · -- memory in front of other blocks does not change
          have hmem : ∀ p' n' i, o p' = some n' → i < 8 → ¬ (ret - 8 ≤ p' - 8 + i ∧ p' - 8 + i < ret - 8 + 8) := by
            intro p' n' i hp' hi
            have h1 := hdj p' n' hp'
            obtain ⟨c', r1, _, r2, r3, r4, r5⟩ := hother p' n' hp'
            omega
          have hslot : ∀ p' n', o p' = some n' → ∀ i, i < 8 →
              (if ret - 8 ≤ p' - 8 + i ∧ p' - 8 + i < ret - 8 + 8 then some (c, p' - 8 + i - (ret - 8)) else s1.mem (p' - 8 + i)) =
                s.mem (p' - 8 + i) := by
            intro p' n' hp' i hi
            rw [if_neg (hmem p' n' i hp' hi)]
          refine ⟨?_, ?_, ?_, ?_, ?_⟩
          · intro p m hpm
            by_cases hpr : p = ret
            · subst hpr
              simp only [if_true, Option.some.injEq] at hpm
              subst hpm
              refine ⟨c, hc1, hup, by omega, by omega, ⟨k3, k4⟩, hc, fun i hi => ?_⟩
              show (if _ then _ else _) = _
              rw [if_pos (by omega)]
              congr 2
              omega
            · rw [if_neg hpr] at hpm
              obtain ⟨c', r1, r2, r3, r4, r5, r6, r7⟩ := hI.blk p m hpm
              refine ⟨c', ?_, r2, r3, r4, r5, r6, fun i hi => ?_⟩
              · show (if c' = c then _ else _) = _
                rw [if_neg (by rintro rfl; rw [hfresh] at r1; cases r1)]
                exact r1
              · show (if _ then _ else _) = _
                rw [hslot p m hpm i hi]; exact r7 i hi
          · intro p m p' m' c' hpm hpm' h1 h2
            simp only at hpm hpm' h1 h2
            have key : ∀ q k, o q = some k → (if ret - 8 ≤ q - 8 ∧ q - 8 < ret - 8 + 8 then some (c, q - 8 - (ret - 8)) else s1.mem (q - 8))
                = s.mem (q - 8) := fun q k hq => hslot q k hq 0 (by omega)
            have new : (if ret - 8 ≤ ret - 8 ∧ ret - 8 < ret - 8 + 8 then some (c, ret - 8 - (ret - 8)) else s1.mem (ret - 8)) =
                some (c, 0) := by rw [if_pos (by omega)]; congr 2; omega
            have old : ∀ q k, o q = some k → s.mem (q - 8) = some (c, 0) → False := by
              intro q k hq hm
              obtain ⟨c2, r1, _, _, _, _, _, r5⟩ := hI.blk q k hq
              have := r5 0 (by omega)
              rw [show q - 8 + 0 = q - 8 from rfl, hm] at this
              have : c2 = c := by simpa using this.symm
              subst this; rw [hfresh] at r1; cases r1
            by_cases hpr : p = ret
            · subst hpr
              by_cases hpr' : p' = p
              · exact hpr'.symm
              · rw [if_neg hpr'] at hpm'
                rw [key p' m' hpm'] at h2
                rw [new] at h1
                cases h1
                exact (old p' m' hpm' h2).elim
            · rw [if_neg hpr] at hpm
              rw [key p m hpm] at h1
              by_cases hpr' : p' = ret
              · subst hpr'
                rw [new] at h2
                cases h2
                exact (old p m hpm h1).elim
              · rw [if_neg hpr'] at hpm'
                rw [key p' m' hpm'] at h2
                exact hI.one p m p' m' c' hpm hpm' h1 h2
          · intro x m x' m' h1 h2 hm hm'
            simp only [s1] at h1 h2
            by_cases hx : x = c
            · by_cases hx' : x' = c
              · exact .inl (hx.trans hx'.symm)
              · rw [if_pos hx] at h1; rw [if_neg hx'] at h2
                have := hdis x' m' h2 hm'
                cases h1
                omega
            · rw [if_neg hx] at h1
              by_cases hx' : x' = c
              · rw [if_pos hx'] at h2
                have := hdis x m h1 hm
                cases h2
                omega
              · rw [if_neg hx'] at h2
                exact hI.disj x m x' m' h1 h2 hm hm'
          · intro x m h1
            simp only [s1] at h1
            by_cases hx : x = c
            · rw [if_pos hx] at h1; cases h1; omega
            · rw [if_neg hx] at h1; exact hI.top x m h1
          · intro x m h1
            simp only [s1] at h1
            by_cases hx : x = c
            · refine ⟨ret, n, by simp, ?_⟩
              show (if _ then _ else _) = _
              rw [if_pos (by omega), hx]; congr 2; omega
            · rw [if_neg hx] at h1
              obtain ⟨p, m', q1, q2⟩ := hI.used x m h1
              have hpr : p ≠ ret := by rintro rfl; rw [hnone] at q1; cases q1
              refine ⟨p, m', by show (if _ then _ else _) = _; rw [if_neg hpr]; exact q1, ?_⟩
              show (if _ then _ else _) = _
              have := hslot p m' q1 0 (by omega)
              rw [show p - 8 + 0 = p - 8 from rfl] at this
              rw [this, q2]
  | dealloc p n =>
    by_cases hp0 : p = 0
    · exact ⟨s, o, .unit, by simp [step, deallocate, hp0, Except.map], ⟨rfl, fun _ => rfl, fun h => absurd hp0 h⟩, hI⟩
    · have hpo : o p = some n := hp.resolve_left hp0
      obtain ⟨c, r1, r2, r3, r4, r5, r6, r7⟩ := hI.blk p n hpo
      have halign : (p - 8) % 8 = 0 := by omega
      have hval : valid s (p - 8) 8 = true := valid_of r1 (by omega) (by omega)
      have hload : loadPtr s (p - 8) = .ok c := by
        unfold loadPtr
        rw [if_pos ⟨halign, hval⟩]
        have h0 := r7 0 (by omega)
        rw [show p - 8 + 0 = p - 8 from rfl] at h0
        rw [h0]
        simp only
        rw [if_pos]
        rw [List.all_eq_true]
        intro i hi
        simp only [decide_eq_true_eq]
        exact r7 i (List.mem_range.1 hi)
      have hm0 : s.mem (p - 8) = some (c, 0) := r7 0 (by omega)
      refine ⟨{ s with chunk := fun x => if x = c then none else s.chunk x }, fun x => if x = p then none else o x, .unit, ?_,
        ⟨rfl, fun h => absurd h hp0, fun _ => rfl⟩, ?_⟩
      · simp only [step, deallocate, if_neg hp0]
        rw [if_neg (by omega), hload]
        simp only [sysFree, if_pos r1, Except.map]
      · have own : ∀ q k, o q = some k → q ≠ p → ∀ c', s.mem (q - 8) = some (c', 0) → c' ≠ c := by
          rintro q k hq hne c' hm rfl
          exact hne (hI.one q k p n c' hq hpo hm hm0)
        refine ⟨?_, ?_, ?_, ?_, ?_⟩
        · intro q k hq
          by_cases hqp : q = p
          · rw [if_pos hqp] at hq; cases hq
          · rw [if_neg hqp] at hq
            obtain ⟨c', t1, t2, t3, t4, t5, t6, t7⟩ := hI.blk q k hq
            refine ⟨c', ?_, t2, t3, t4, t5, t6, t7⟩
            show (if c' = c then _ else _) = _
            rw [if_neg (own q k hq hqp c' (t7 0 (by omega)))]
            exact t1
        · intro q k q' k' c' hq hq' h1 h2
          by_cases hqp : q = p
          · rw [if_pos hqp] at hq; cases hq
          · by_cases hqp' : q' = p
            · rw [if_pos hqp'] at hq'; cases hq'
            · rw [if_neg hqp] at hq; rw [if_neg hqp'] at hq'
              exact hI.one q k q' k' c' hq hq' h1 h2
        · intro x m x' m' h1 h2 hm hm'
          simp only at h1 h2
          by_cases hx : x = c
          · rw [if_pos hx] at h1; cases h1
          · by_cases hx' : x' = c
            · rw [if_pos hx'] at h2; cases h2
            · rw [if_neg hx] at h1; rw [if_neg hx'] at h2
              exact hI.disj x m x' m' h1 h2 hm hm'
        · intro x m h1
          simp only at h1
          by_cases hx : x = c
          · rw [if_pos hx] at h1; cases h1
          · rw [if_neg hx] at h1; exact hI.top x m h1
        · intro x m h1
          simp only at h1
          by_cases hx : x = c
          · rw [if_pos hx] at h1; cases h1
          · rw [if_neg hx] at h1
            obtain ⟨q, k, q1, q2⟩ := hI.used x m h1
            have hqp : q ≠ p := by
              rintro rfl
              rw [hm0] at q2
              exact hx (by simpa using q2.symm)
            exact ⟨q, k, by show (if _ then _ else _) = _; rw [if_neg hqp]; exact q1, q2⟩
  | write a v =>
    obtain ⟨p, n, hpo, h1, h2⟩ := hp
    obtain ⟨c, r1, r2, r3, r4, r5, r6, r7⟩ := hI.blk p n hpo
    have hval : valid s a 1 = true := valid_of r1 (by omega) (by omega)
    have hmem : ∀ q k i, o q = some k → i < 8 → q - 8 + i ≠ a := by
      intro q k i hq hi
      by_cases hqp : q = p
      · subst hqp; omega
      · have := hI.apart hpo hq (Ne.symm hqp)
        obtain ⟨c', t1, t2, t3, t4, _⟩ := hI.blk q k hq
        omega
    refine ⟨{ s with mem := fun b => if b = a then v else s.mem b }, o, .unit, by simp only [step, if_pos hval], ⟨rfl, rfl⟩,
      ?_, ?_, hI.disj, hI.top, ?_⟩
    · intro q k hq
      obtain ⟨c', t1, t2, t3, t4, t5, t6, t7⟩ := hI.blk q k hq
      refine ⟨c', t1, t2, t3, t4, t5, t6, fun i hi => ?_⟩
      show (if _ = a then v else _) = _
      rw [if_neg (hmem q k i hq hi)]; exact t7 i hi
    · intro q k q' k' c' hq hq' e1 e2
      have n1 := hmem q k 0 hq (by omega)
      have n2 := hmem q' k' 0 hq' (by omega)
      simp only [Nat.add_zero] at n1 n2
      simp only [if_neg n1] at e1
      simp only [if_neg n2] at e2
      exact hI.one q k q' k' c' hq hq' e1 e2
    · intro x m h1
      obtain ⟨q, k, q1, q2⟩ := hI.used x m h1
      have n1 := hmem q k 0 q1 (by omega)
      simp only [Nat.add_zero] at n1
      exact ⟨q, k, q1, by show (if _ = a then v else _) = _; rw [if_neg n1]; exact q2⟩

/-- Contracts along a run: the answers of the system have to be sound in the states which the program reaches. -/
def Legal (P : Par) : St → Own → List Op → Prop
  | _, _, [] => True
  | s, o, op :: ops => Pre P s o op ∧ ∀ s' o' out, step P s op = .ok (s', out) → Post P o op o' out → Legal P s' o' ops

/-- What a program may observe. -/
def Run (P : Par) : Own → List Op → List Out → Own → Prop
  | o, [], outs, o' => outs = [] ∧ o' = o
  | o, op :: ops, outs, o' => ∃ out outs' o1, outs = out :: outs' ∧ Post P o op o1 out ∧ Run P o1 ops outs' o'

theorem run_ok (h8 : 8 ∣ P.align ∨ P.align = 4) (ha : 0 < P.align) (ops : List Op) : ∀ {s : St} {o : Own}, Inv P s o → Legal P s o ops →
    ∃ s' o' outs, run P s ops = .ok (s', outs) ∧ Run P o ops outs o' ∧ Inv P s' o' := by
  induction ops with
  | nil => intro s o hI _; exact ⟨s, o, [], rfl, ⟨rfl, rfl⟩, hI⟩
  | cons op ops ih =>
    intro s o hI hleg
    obtain ⟨s1, o1, out, e1, e2, e3⟩ := step_ok h8 ha hI op hleg.1
    obtain ⟨s', o', outs, k1, k2, k3⟩ := ih e3 (hleg.2 s1 o1 out e1 e2)
    exact ⟨s', o', out :: outs, by simp only [run, e1, k1], ⟨out, outs, o1, rfl, e2, k2⟩, k3⟩

end LFA.AA
