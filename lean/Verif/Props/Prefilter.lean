/-
  C77: vectors which serve as a filter before scalar code do not change what is computed.
-/
import Verif.Prefilter
import Verif.Props.AllPairs
set_option linter.unusedSectionVars false
namespace LFA.GK
open SV (Expr Entry FEnv Mem Writes Faithful Transfers Reqs lane FOps Rel)
open Props (ArrValid ListIs)

variable {V : Type} [DecidableEq V] {w : Nat}

/-! ### Scalar code -/

/-- Whether the inner loop's element `c` passes the test, for an outer loop's element `o`. -/
def Prefilter.near (P : Prefilter w V) (o c : Cell V) : Bool :=
  P.F.rel P.rel (P.test.scalar P.F fun v => num P.B (if (P.src v).own then c else o) (P.src v).r 0) P.thr

/-- The inner loop's element `c` after the update by the outer loop's element `p`. -/
def Prefilter.bumped (P : Prefilter w V) (b : Bump w) (p c : Cell V) : Cell V :=
  c.set b.r 0 (P.B.val (b.code.scalar P.F fun v => num P.B (if (b.src v).own then c else p) (b.src v).r 0))

/-- The pair of elements `i` and `k`; `o` is what element `i` was before the inner loop. -/
def Prefilter.visit (P : Prefilter w V) (b : Bump w) (i : Nat) (o : Cell V) (l : List (Cell V)) (k : Nat) : List (Cell V) :=
  match l[i]?, l[k]? with
  | some p, some c => if P.near o c then l.set k (P.bumped b p c) else l
  | _, _ => l

/-- One iteration of the outer loop. -/
def Prefilter.row (P : Prefilter w V) (b : Bump w) (l : List (Cell V)) (i : Nat) : List (Cell V) :=
  match l[i]? with
  | some o => (List.range l.length).foldl (P.visit b i o) l
  | none => l

/-- One pass over all pairs. -/
def Prefilter.scalarPass (P : Prefilter w V) (l : List (Cell V)) (b : Bump w) : List (Cell V) := (List.range l.length).foldl (P.row b) l

/-- All passes, `n` times. -/
def Prefilter.scalars (P : Prefilter w V) : Nat → List (Cell V) → List (Cell V)
  | 0, l => l
  | n + 1, l => P.scalars n (P.bumps.foldl P.scalarPass l)

/-- Members which are read by the test resp. an update. -/
def Prefilter.tested (P : Prefilter w V) : List Nat := P.test.vars.map fun v => (P.src v).r
def Bump.reads (b : Bump w) : List Nat := b.code.vars.map fun v => (b.src v).r

/-- The struct suits the program: the members which are tested can be loaded as vectors from arrays of capacity `N`, there are those which
    are read or written by the updates. -/
structure Prefilter.Fits (P : Prefilter w V) (N : Nat) : Prop where
  wf : P.L.WF
  base : ∀ s, w / 8 ∣ P.base s
  tested : ∀ r ∈ P.tested, ∃ m, P.L[r]? = some m ∧ m.ty.size = w / 8 ∧ w / 8 ∣ N * offset P.L r
  reads : ∀ b ∈ P.bumps, ∀ r ∈ b.r :: b.reads, (P.L[r]?).isSome = true

/-- All members which are read are numbers. -/
def Prefilter.Numbers (P : Prefilter w V) (l : List (Cell V)) : Prop :=
  ∀ c ∈ l, ∀ r, r ∈ P.tested ∨ (∃ b ∈ P.bumps, r ∈ b.reads) → (P.B.bits (c r 0)).isSome = true

/-! ### Scalar loops -/

/-- The array in slot `s` holds the list. -/
def Holding (L : Layout V) (W : ArrWorld V) (s N : Nat) (l : List (Cell V)) : Prop := ∃ a, W.a s = some a ∧ LFA.Rep L a N l

section
variable {P : Prefilter w V} {e : Entry w} {N s i : Nat} {b : Bump w} {l : List (Cell V)} {W : ArrWorld V}

theorem visit_length (o : Cell V) (l : List (Cell V)) (k : Nat) : (P.visit b i o l k).length = l.length := by
  unfold Prefilter.visit
  split
  · split <;> simp
  · rfl

theorem visits_length (o : Cell V) : ∀ (ks : List Nat) (l : List (Cell V)), (ks.foldl (P.visit b i o) l).length = l.length := by
  intro ks
  induction ks with
  | nil => intro l; rfl
  | cons k ks ih => intro l; rw [List.foldl_cons, ih, visit_length]

theorem row_length (l : List (Cell V)) (i : Nat) : (P.row b l i).length = l.length := by
  unfold Prefilter.row
  split
  · exact visits_length _ _ _
  · rfl

theorem rows_length : ∀ (is : List Nat) (l : List (Cell V)), (is.foldl (P.row b) l).length = l.length := by
  intro is
  induction is with
  | nil => intro l; rfl
  | cons k is ih => intro l; rw [List.foldl_cons, ih, row_length]

theorem visit_numbers (o : Cell V) (h : P.Numbers l) (k : Nat) : P.Numbers (P.visit b i o l k) := by
  unfold Prefilter.visit
  split
  case h_1 p c hp hc =>
    split
    · intro c' hc' r hr
      rcases List.mem_or_eq_of_mem_set hc' with h' | rfl
      · exact h c' h' r hr
      · simp only [Prefilter.bumped, Cell.set]
        split
        · simp [P.B.bits_val]
        · exact h c (List.mem_of_getElem? hc) r hr
    · exact h
  · exact h

theorem visits_numbers (o : Cell V) : ∀ (ks : List Nat) (l : List (Cell V)), P.Numbers l → P.Numbers (ks.foldl (P.visit b i o) l) := by
  intro ks
  induction ks with
  | nil => intro l h; exact h
  | cons k ks ih => intro l h; exact ih _ (visit_numbers o h k)

theorem row_numbers (h : P.Numbers l) (i : Nat) : P.Numbers (P.row b l i) := by
  unfold Prefilter.row
  split
  · exact visits_numbers _ _ _ h
  · exact h

theorem rows_numbers : ∀ (is : List Nat) (l : List (Cell V)), P.Numbers l → P.Numbers (is.foldl (P.row b) l) := by
  intro is
  induction is with
  | nil => intro l h; exact h
  | cons k is ih => intro l h; exact ih _ (row_numbers h k)

theorem arrnum_ok {L : Layout V} (hL : L.WF) (B : Bits w V) (h : Holding L W s N l) {i r : Nat} {c : Cell V} (hc : l[i]? = some c)
    (hr : (L[r]?).isSome = true) : arrNum L B W s i r = B.bits (c r 0) := by
  obtain ⟨a, ha, hR⟩ := h
  obtain ⟨m, hm⟩ := Option.isSome_iff_exists.1 hr
  have hlt : i < l.length := (List.getElem?_eq_some_iff.1 hc).1
  have hb : i < 2 ^ 31 := by have := hR.fits; have := hR.int; omega
  have := hR.peekAt hL hc hm (hL.elems_pos hm)
  simp only [arrNum, ArrWorld.step, ArrWorld.withA, ha, hm, toInt32_small hb, ArrWorld.ro]
  rw [this]

theorem evalall_ok (F : FOps w) (c : Expr w) {env : Nat → Option (BitVec w)} {val : Nat → BitVec w} (h : ∀ v ∈ c.vars, env v = some (val v)) :
    evalAll F c env = some (c.scalar F val) := by
  unfold evalAll
  rw [if_pos (List.all_eq_true.2 fun v hv => by rw [h v hv]; rfl)]
  exact congrArg some (SV.Expr.scalar_congr F c fun v hv => by rw [h v hv]; rfl)

/-- What the registers hold. -/
def Prefilter.Regs (P : Prefilter w V) (regs : Nat → Option (BitVec w)) (o : Cell V) : Prop := ∀ r ∈ P.tested, regs r = some (num P.B o r 0)

theorem num_some {B : Bits w V} {c : Cell V} {r : Nat} (h : (B.bits (c r 0)).isSome = true) : B.bits (c r 0) = some (num B c r 0) := by
  obtain ⟨x, hx⟩ := Option.isSome_iff_exists.1 h
  simp [num, hx]

theorem Prefilter.one_ok (hF : P.Fits N) (hb : b ∈ P.bumps) (h : Holding P.L W s N l) (hn : P.Numbers l) {regs : Nat → Option (BitVec w)}
    {o : Cell V} (hregs : P.Regs regs o) (hi : i < l.length) {k : Nat} (hk : k < l.length) :
    ∃ W', P.one b s i regs k W = .ok (W', .unit) ∧ Holding P.L W' s N (P.visit b i o l k) := by
  have hi' := List.getElem?_eq_getElem hi
  have hk' := List.getElem?_eq_getElem hk
  have some_of : ∀ r ∈ P.tested, (P.L[r]?).isSome = true := fun r hr => by
    obtain ⟨m, hm, -⟩ := hF.tested r hr
    rw [hm]; rfl
  have e1 : (evalAll P.F P.test fun v => if (P.src v).own then arrNum P.L P.B W s k (P.src v).r else regs (P.src v).r) =
      some (P.test.scalar P.F fun v => num P.B (if (P.src v).own then l[k] else o) (P.src v).r 0) := by
    refine evalall_ok P.F P.test fun v hv => ?_
    have hr : (P.src v).r ∈ P.tested := List.mem_map.2 ⟨v, hv, rfl⟩
    cases ho : (P.src v).own
    · simpa using hregs _ hr
    · simp only [if_true]
      rw [arrnum_ok hF.wf P.B h hk' (some_of _ hr)]
      exact num_some (hn _ (List.getElem_mem hk) _ (.inl hr))
  have e2 : (evalAll P.F b.code fun v => arrNum P.L P.B W s (if (b.src v).own then k else i) (b.src v).r) =
      some (b.code.scalar P.F fun v => num P.B (if (b.src v).own then l[k] else l[i]) (b.src v).r 0) := by
    refine evalall_ok P.F b.code fun v hv => ?_
    have hr : (b.src v).r ∈ b.reads := List.mem_map.2 ⟨v, hv, rfl⟩
    have hs := hF.reads b hb _ (List.mem_cons_of_mem _ hr)
    cases ho : (b.src v).own
    · simp only [Bool.false_eq_true, if_false]
      rw [arrnum_ok hF.wf P.B h hi' hs]
      exact num_some (hn _ (List.getElem_mem hi) _ (.inr ⟨b, hb, hr⟩))
    · simp only [if_true]
      rw [arrnum_ok hF.wf P.B h hk' hs]
      exact num_some (hn _ (List.getElem_mem hk) _ (.inr ⟨b, hb, hr⟩))
  unfold Prefilter.one Prefilter.visit
  simp only [e1, hi', hk']
  by_cases hc : P.near o l[k] = true
  · have hc' := hc
    rw [Prefilter.near] at hc'
    rw [if_pos hc', if_pos hc, e2]
    obtain ⟨a, ha, hR⟩ := h
    obtain ⟨m, hm⟩ := Option.isSome_iff_exists.1 (hF.reads b hb b.r List.mem_cons_self)
    have hlt : k < 2 ^ 31 := by have := hR.fits; have := hR.int; omega
    obtain ⟨d, p1, p2⟩ := hR.pokeAt hF.wf hk' hm (hF.wf.elems_pos hm)
      (P.B.val (b.code.scalar P.F fun v => num P.B (if (b.src v).own then l[k] else l[i]) (b.src v).r 0))
    refine ⟨⟨ArrWorld.upd W.a s (some { a with data := d }), W.gone⟩, ?_, _, by simp only [ArrWorld.upd, if_true], p2⟩
    simp only [ArrWorld.step, ArrWorld.withA, ha, hm, toInt32_small hlt, p1, ArrWorld.wr]
  · have hc' := hc
    rw [Prefilter.near] at hc'
    rw [if_neg hc', if_neg hc]
    exact ⟨W, rfl, h⟩

theorem Prefilter.each_ok (hF : P.Fits N) (hb : b ∈ P.bumps) {regs : Nat → Option (BitVec w)} {o : Cell V} (hregs : P.Regs regs o) :
    ∀ (n k : Nat) (W : ArrWorld V) (l : List (Cell V)), Holding P.L W s N l → P.Numbers l → i < l.length → k + n ≤ l.length →
      ∃ W', P.each b s i regs n k W = .ok (W', .unit) ∧ Holding P.L W' s N ((List.range' k n).foldl (P.visit b i o) l) := by
  intro n
  induction n with
  | zero => intro k W l h _ _ _; exact ⟨W, rfl, h⟩
  | succ n ih =>
    intro k W l h hn hi hk
    obtain ⟨W1, e1, h1⟩ := Prefilter.one_ok hF hb h hn hregs hi (k := k) (by omega)
    obtain ⟨W2, e2, h2⟩ := ih (k + 1) W1 _ h1 (visit_numbers o hn k) (by rw [visit_length]; exact hi) (by rw [visit_length]; omega)
    refine ⟨W2, ?_, ?_⟩
    · unfold Prefilter.each
      rw [e1]
      exact e2
    · rw [List.range'_succ, List.foldl_cons]
      exact h2

/-- Nobody passes the test. -/
theorem visits_none {o : Cell V} : ∀ (ks : List Nat), (∀ k ∈ ks, ∀ c, l[k]? = some c → P.near o c = false) → ks.foldl (P.visit b i o) l = l := by
  intro ks
  induction ks with
  | nil => intro _; rfl
  | cons k ks ih =>
    intro h
    have : P.visit b i o l k = l := by
      unfold Prefilter.visit
      split
      case h_1 p c hp hc => rw [if_neg (by rw [h k List.mem_cons_self c hc]; simp)]
      · rfl
    rw [List.foldl_cons, this]
    exact ih fun k' hk' => h k' (List.mem_cons_of_mem _ hk')

/-! ### Blocks -/

/-- What is needed of vectors. -/
structure Prefilter.VecsOk (P : Prefilter w V) (e : Entry w) : Prop where
  ok : VecOk e P.E P.F
  faithful : ∃ d f c, Faithful e.impl e.cmp P.E P.F d f c ∧ P.test.only d f c = true
  dvd : e.impl.N ∣ 2 ^ 64

theorem Prefilter.block_ok (hF : P.Fits N) (hv : P.VecsOk e) (hb : b ∈ P.bumps) {regs : Nat → Option (BitVec w)} {o : Cell V}
    (hregs : P.Regs regs o) (h : Holding P.L W s N l) (hn : P.Numbers l) (hi : i < l.length) {j : Nat} (hj : j + e.impl.N ≤ l.length) :
    ∃ W', P.block e b s i regs j W = .ok (W', .unit) ∧ Holding P.L W' s N ((List.range' j e.impl.N).foldl (P.visit b i o) l) := by
  obtain ⟨a, ha, hR⟩ := h
  obtain ⟨Q, hQ, T⟩ := hv.ok.loads
  obtain ⟨D, hD, hany, -⟩ := hv.ok.tests
  obtain ⟨d, f, c, H, honly⟩ := hv.faithful
  have hR' : LFA.Rep P.L ⟨a.N, l.length, a.data⟩ N l := by
    have := hR.len
    rw [← this]
    exact hR
  have hvars : ∀ v ∈ P.test.vars, ∃ y, P.vecs e s a regs j v = some y ∧
      ∀ q < e.impl.N, lane e.impl y q = num P.B (if (P.src v).own then l.getD (j + q) o else o) (P.src v).r 0 := by
    intro v hvv
    have hr : (P.src v).r ∈ P.tested := List.mem_map.2 ⟨v, hvv, rfl⟩
    unfold Prefilter.vecs
    cases ho : (P.src v).own
    · refine ⟨e.impl.bcast P.E (num P.B o (P.src v).r 0), by simp [hregs _ hr], fun q hq => ?_⟩
      simp [H.bcast _ q hq]
    · obtain ⟨m, hm, hs, hoff⟩ := hF.tested _ hr
      obtain ⟨y, y1, y2⟩ := arrload_ok hF.wf P.B T hQ hv.ok.w (hF.base s) hm hs hoff hR' (fun c hc => hn c hc _ (.inl hr)) hj hv.ok.pos
      refine ⟨y, by simpa using y1, fun q hq => ?_⟩
      have hlt : j + q < l.length := by omega
      have hq' := List.getElem?_eq_getElem hlt
      have := y2 q hq _ hq'
      simp only [if_true, List.getD_eq_getElem?_getD, hq', Option.getD_some, num, this]
  obtain ⟨y, y1, y2⟩ := H.vec (P.vecs e s a regs j) (fun q v => num P.B (if (P.src v).own then l.getD (j + q) o else o) (P.src v).r 0) P.test
    honly hvars
  obtain ⟨mk, hmk, hsel⟩ := hany P.rel y (e.impl.bcast P.E P.thr)
  have hnear : ∀ q < e.impl.N, P.F.rel P.rel (lane e.impl y q) (lane e.impl (e.impl.bcast P.E P.thr) q) = P.near o (l.getD (j + q) o) := by
    intro q hq
    rw [hv.ok.bcast _ q hq, y2 q hq]
    rfl
  unfold Prefilter.block
  rw [hD] at y1
  simp only [ArrWorld.withA, ha, hD, y1, Option.bind_some, hmk, Option.map_some]
  cases hc : D.any P.E mk
  · refine ⟨W, rfl, ?_⟩
    rw [visits_none]
    · exact ⟨a, ha, hR⟩
    · intro k hk c' hc'
      obtain ⟨q, hq, rfl⟩ := List.mem_range'.1 hk
      by_contra hne
      have : D.any P.E mk = true := hsel.2 ⟨q, hq, by
        rw [hnear q hq, List.getD_eq_getElem?_getD]
        simp only [Nat.one_mul] at hc'
        rw [hc', Option.getD_some]
        exact Bool.eq_true_of_not_eq_false hne⟩
      rw [hc] at this
      cases this
  · exact Prefilter.each_ok hF hb hregs e.impl.N j W l ⟨a, ha, hR⟩ hn hi hj

theorem Prefilter.inner_ok (hF : P.Fits N) (hv : P.VecsOk e) (hb : b ∈ P.bumps) {regs : Nat → Option (BitVec w)} {o : Cell V}
    (hregs : P.Regs regs o) : ∀ (f j : Nat) (W : ArrWorld V) (l : List (Cell V)), Holding P.L W s N l → P.Numbers l → i < l.length →
      j ≤ l.length → e.impl.N ∣ l.length - j → l.length - j ≤ f →
      ∃ W', P.inner e b s i regs f j W = .ok (W', .unit) ∧ Holding P.L W' s N ((List.range' j (l.length - j)).foldl (P.visit b i o) l) := by
  intro f
  have done : ∀ (j : Nat) (W : ArrWorld V) (l : List (Cell V)) f, Holding P.L W s N l → j = l.length →
      ∃ W', P.inner e b s i regs f j W = .ok (W', .unit) ∧ Holding P.L W' s N ((List.range' j (l.length - j)).foldl (P.visit b i o) l) := by
    intro j W l f h hj
    obtain ⟨a, ha, hR⟩ := h
    refine ⟨W, ?_, by rw [hj, Nat.sub_self]; exact ⟨a, ha, hR⟩⟩
    have : a.n = l.length := hR.len
    cases f <;> simp [Prefilter.inner, ArrWorld.withA, ha, this, hj]
  induction f with
  | zero => intro j W l h hn hi hj hd hf; exact done j W l 0 h (by omega)
  | succ f ih =>
    intro j W l h hn hi hj hd hf
    rcases Nat.eq_or_lt_of_le hj with heq | hlt
    · exact done j W l _ h heq
    · have hpos := hv.ok.pos
      have hle : e.impl.N ≤ l.length - j := Nat.le_of_dvd (by omega) hd
      obtain ⟨W1, e1, h1⟩ := Prefilter.block_ok hF hv hb hregs h hn hi (j := j) (by omega)
      have hlen := visits_length (P := P) (b := b) (i := i) o (List.range' j e.impl.N) l
      obtain ⟨a, ha, hR⟩ := h
      have hb31 : l.length < 2 ^ 31 := by have := hR.fits; have := hR.int; omega
      obtain ⟨W2, e2, h2⟩ := ih (j + e.impl.N) W1 _ h1 (visits_numbers o _ _ hn) (by omega) (by omega)
        (by rw [hlen, ← Nat.sub_sub]; exact Nat.dvd_sub hd (dvd_refl _)) (by omega)
      refine ⟨W2, ?_, ?_⟩
      · have hne : j ≠ a.n := by rw [hR.len]; omega
        simp only [Prefilter.inner, ArrWorld.withA, ha, if_pos hne, e1, andThen]
        rw [Nat.mod_eq_of_lt (by omega)]
        exact e2
      · rw [hlen] at h2
        have : List.range' j (l.length - j) = List.range' j e.impl.N ++ List.range' (j + e.impl.N) (l.length - (j + e.impl.N)) := by
          rw [List.range'_append_1]
          congr 1
          omega
        rw [this, List.foldl_append]
        exact h2

theorem Prefilter.outer_ok (hF : P.Fits N) (hv : P.VecsOk e) (hb : b ∈ P.bumps) {f0 : Nat} :
    ∀ (f i : Nat) (W : ArrWorld V) (l : List (Cell V)), Holding P.L W s N l → P.Numbers l → e.impl.N ∣ l.length → l.length ≤ f0 →
      i ≤ l.length → l.length - i ≤ f →
      ∃ W', P.outer e b s f0 f i W = .ok (W', .unit) ∧ Holding P.L W' s N ((List.range' i (l.length - i)).foldl (P.row b) l) := by
  intro f
  have done : ∀ (i : Nat) (W : ArrWorld V) (l : List (Cell V)) f, Holding P.L W s N l → i = l.length →
      ∃ W', P.outer e b s f0 f i W = .ok (W', .unit) ∧ Holding P.L W' s N ((List.range' i (l.length - i)).foldl (P.row b) l) := by
    intro i W l f h hi
    obtain ⟨a, ha, hR⟩ := h
    refine ⟨W, ?_, by rw [hi, Nat.sub_self]; exact ⟨a, ha, hR⟩⟩
    have : a.n = l.length := hR.len
    cases f <;> simp [Prefilter.outer, ArrWorld.withA, ha, this, hi]
  induction f with
  | zero => intro i W l h _ _ _ hi hf; exact done i W l 0 h (by omega)
  | succ f ih =>
    intro i W l h hn hd hf0 hi hf
    rcases Nat.eq_or_lt_of_le hi with heq | hlt
    · exact done i W l _ h heq
    · have hi' := List.getElem?_eq_getElem hlt
      have hregs : P.Regs (arrNum P.L P.B W s i) l[i] := fun r hr => by
        obtain ⟨m, hm, -⟩ := hF.tested r hr
        rw [arrnum_ok hF.wf P.B h hi' (by rw [hm]; rfl)]
        exact num_some (hn _ (List.getElem_mem hlt) _ (.inl hr))
      obtain ⟨W1, e1, h1⟩ := Prefilter.inner_ok (i := i) hF hv hb hregs f0 0 W l h hn hlt (Nat.zero_le _) (by simpa using hd) (by omega)
      rw [Nat.sub_zero, ← List.range_eq_range'] at h1
      have hrow : P.row b l i = (List.range l.length).foldl (P.visit b i l[i]) l := by simp only [Prefilter.row, hi']
      rw [← hrow] at h1
      have hlen := row_length (P := P) (b := b) l i
      obtain ⟨a, ha, hR⟩ := h
      have hb31 : l.length < 2 ^ 31 := by have := hR.fits; have := hR.int; omega
      obtain ⟨W2, e2, h2⟩ := ih (i + 1) W1 _ h1 (row_numbers hn i) (by rw [hlen]; exact hd) (by omega) (by omega) (by omega)
      refine ⟨W2, ?_, ?_⟩
      · have hne : i ≠ a.n := by rw [hR.len]; omega
        simp only [Prefilter.outer, ArrWorld.withA, ha, if_pos hne, e1, andThen]
        rw [Nat.mod_eq_of_lt (by omega)]
        exact e2
      · rw [hlen] at h2
        have : List.range' i (l.length - i) = i :: List.range' (i + 1) (l.length - (i + 1)) := by
          rw [← List.range'_succ]
          congr 1
          omega
        rw [this, List.foldl_cons]
        exact h2

theorem pass_length (l : List (Cell V)) : (P.scalarPass l b).length = l.length := rows_length _ _

theorem Prefilter.passes_ok (hF : P.Fits N) (hv : P.VecsOk e) {f : Nat} : ∀ (bs : List (Bump w)) (W : ArrWorld V) (l : List (Cell V)),
    (∀ b ∈ bs, b ∈ P.bumps) → Holding P.L W s N l → P.Numbers l → e.impl.N ∣ l.length → l.length ≤ f →
      ∃ W', P.passes e s f bs W = .ok (W', .unit) ∧ Holding P.L W' s N (bs.foldl P.scalarPass l) ∧ P.Numbers (bs.foldl P.scalarPass l) ∧
        (bs.foldl P.scalarPass l).length = l.length := by
  intro bs
  induction bs with
  | nil => intro W l _ h hn _ _; exact ⟨W, rfl, h, hn, rfl⟩
  | cons b bs ih =>
    intro W l hbs h hn hd hf
    obtain ⟨W1, e1, h1⟩ := Prefilter.outer_ok hF hv (hbs b List.mem_cons_self) (f0 := f) f 0 W l h hn hd hf (Nat.zero_le _) (by omega)
    rw [Nat.sub_zero, ← List.range_eq_range'] at h1
    have hlen := pass_length (P := P) (b := b) l
    obtain ⟨W2, e2, h2, h3, h4⟩ := ih W1 (P.scalarPass l b) (fun b' hb' => hbs b' (List.mem_cons_of_mem _ hb')) h1 (rows_numbers _ _ hn)
      (by rw [hlen]; exact hd) (by omega)
    refine ⟨W2, ?_, h2, h3, h4.trans hlen⟩
    unfold Prefilter.passes
    rw [e1]
    exact e2

theorem Prefilter.run_ok (hF : P.Fits N) (hv : P.VecsOk e) {f : Nat} : ∀ (n : Nat) (W : ArrWorld V) (l : List (Cell V)),
    Holding P.L W s N l → P.Numbers l → e.impl.N ∣ l.length → l.length ≤ f →
      ∃ W', P.run e s f n W = .ok (W', .unit) ∧ Holding P.L W' s N (P.scalars n l) := by
  intro n
  induction n with
  | zero => intro W l h _ _ _; exact ⟨W, rfl, h⟩
  | succ n ih =>
    intro W l h hn hd hf
    obtain ⟨W1, e1, h1, h2, h3⟩ := Prefilter.passes_ok hF hv P.bumps W l (fun _ hb => hb) h hn hd hf
    obtain ⟨W2, e2, h4⟩ := ih W1 _ h1 h2 (by rw [h3]; exact hd) (by omega)
    refine ⟨W2, ?_, h4⟩
    unfold Prefilter.run
    rw [e1]
    exact e2

theorem prefilter_ok (hF : P.Fits N) (hv : P.VecsOk e) (dv : V) (n f : Nat) (hV : ArrValid P.L W) (h : ListIs P.L W s N l) (hn : P.Numbers l)
    (hd : e.impl.N ∣ l.length) (hf : l.length ≤ f) : ∃ W', P.run e s f n W = .ok (W', .unit) ∧ ListIs P.L W' s N (P.scalars n l) := by
  obtain ⟨W', e1, a, ha, hR⟩ := Prefilter.run_ok hF hv n W l (listIs_rep hF.wf dv hV h) hn hd hf
  exact ⟨W', e1, ListIs.of_rep hF.wf ha hR⟩

/-! ### Loops which do not end -/

/-- An array has this many elements. -/
def Sized (W : ArrWorld V) (s n : Nat) : Prop := ∃ a, W.a s = some a ∧ a.n = n

/-- Either an error or an array with as many elements. -/
def Keeps (s n : Nat) (x : Except UB (ArrWorld V × ArrOut V)) : Prop := ∀ W o, x = .ok (W, o) → o = .unit ∧ Sized W s n

theorem Keeps.andThen {s n : Nat} {x : Except UB (ArrWorld V × ArrOut V)} {f : ArrWorld V → ArrOut V → Except UB (ArrWorld V × ArrOut V)}
    (h : Keeps s n x) (hf : ∀ W, Sized W s n → Keeps s n (f W .unit)) : Keeps s n (andThen x f) := by
  cases x with
  | error u => intro W o h; cases h
  | ok p =>
    obtain ⟨W, o⟩ := p
    obtain ⟨rfl, h2⟩ := h W o rfl
    exact hf W h2

theorem Prefilter.one_keeps {n : Nat} (h : Sized W s n) (regs : Nat → Option (BitVec w)) (k : Nat) : Keeps s n (P.one b s i regs k W) := by
  obtain ⟨a, ha, hn⟩ := h
  intro W' o e1
  unfold Prefilter.one at e1
  split at e1
  · cases e1
  · split at e1
    · split at e1
      · cases e1
      · simp only [ArrWorld.step, ArrWorld.withA, ha] at e1
        split at e1
        · cases e1
        · unfold ArrWorld.wr at e1
          split at e1
          case h_1 d _ =>
            cases e1
            exact ⟨rfl, { a with data := d }, by simp only [ArrWorld.upd, if_true], hn⟩
          · cases e1
    · cases e1
      exact ⟨rfl, a, ha, hn⟩

theorem Prefilter.each_keeps {n : Nat} (regs : Nat → Option (BitVec w)) : ∀ (m k : Nat) (W : ArrWorld V), Sized W s n →
    Keeps s n (P.each b s i regs m k W) := by
  intro m
  induction m with
  | zero => intro k W h W' o e1; cases e1; exact ⟨rfl, h⟩
  | succ m ih => intro k W h; exact (Prefilter.one_keeps h regs k).andThen fun W' h' => ih (k + 1) W' h'

theorem Prefilter.block_keeps {n : Nat} (h : Sized W s n) (regs : Nat → Option (BitVec w)) (j : Nat) : Keeps s n (P.block e b s i regs j W) := by
  have h' := h
  obtain ⟨a, ha, hn⟩ := h'
  unfold Prefilter.block
  simp only [ArrWorld.withA, ha]
  split
  · intro W' o e1; cases e1
  · exact Prefilter.each_keeps regs _ _ W h
  · intro W' o e1; cases e1; exact ⟨rfl, h⟩

theorem Prefilter.inner_never {n : Nat} (hdv : e.impl.N ∣ 2 ^ 64) (hn : ¬ e.impl.N ∣ n) (regs : Nat → Option (BitVec w)) :
    ∀ (f j : Nat) (W : ArrWorld V), Sized W s n → e.impl.N ∣ j → ∃ u, P.inner e b s i regs f j W = .error u := by
  intro f
  induction f with
  | zero =>
    intro j W ⟨a, ha, hs⟩ hj
    have hne : j ≠ a.n := by rintro rfl; rw [hs] at hj; exact hn hj
    exact ⟨.oob, by simp only [Prefilter.inner, ArrWorld.withA, ha, if_pos hne]⟩
  | succ f ih =>
    intro j W h hj
    have hk := Prefilter.block_keeps (P := P) (e := e) (b := b) (i := i) h regs j
    obtain ⟨a, ha, hs⟩ := h
    have hne : j ≠ a.n := by rintro rfl; rw [hs] at hj; exact hn hj
    simp only [Prefilter.inner, ArrWorld.withA, ha, if_pos hne]
    cases hx : P.block e b s i regs j W with
    | error u => exact ⟨u, rfl⟩
    | ok p =>
      obtain ⟨W1, o⟩ := p
      obtain ⟨rfl, h2⟩ := hk W1 o hx
      exact ih _ W1 h2 ((Nat.dvd_mod_iff hdv).2 (Nat.dvd_add hj (dvd_refl _)))

theorem Prefilter.run_never {n : Nat} (hdv : e.impl.N ∣ 2 ^ 64) (hn : ¬ e.impl.N ∣ n) (hb : P.bumps ≠ []) (h : Sized W s n) (f t : Nat) :
    ∃ u, P.run e s f (t + 1) W = .error u := by
  have ho : ∀ b, ∃ u, P.outer e b s f f 0 W = .error u := by
    intro b
    have h0 : 0 ≠ n := by rintro rfl; exact hn (dvd_zero _)
    obtain ⟨a, ha, hs⟩ := id h
    have hne : 0 ≠ a.n := by rw [hs]; exact h0
    cases f with
    | zero => exact ⟨.oob, by simp only [Prefilter.outer, ArrWorld.withA, ha, if_pos hne]⟩
    | succ f =>
      obtain ⟨u, hu⟩ := Prefilter.inner_never (P := P) (b := b) (i := 0) hdv hn (arrNum P.L P.B W s 0) (f + 1) 0 W h (dvd_zero _)
      exact ⟨u, by simp only [Prefilter.outer, ArrWorld.withA, ha, if_pos hne, hu, GK.andThen]⟩
  obtain ⟨b, bs, hbs⟩ := List.exists_cons_of_ne_nil hb
  obtain ⟨u, hu⟩ := ho b
  exact ⟨u, by simp only [Prefilter.run, hbs, Prefilter.passes, hu, GK.andThen]⟩

end

/-! ### C77 -/

theorem float_vecsOk (c : SV.Cfg) (e : Entry 32) (he : e ∈ SV.floatVecs c) (hcmp : SV.hasFloatCmp c e.impl.N = true) {P : Prefilter 32 V}
    (hP : P.F = P.E.f32) (hk : P.test.only (SV.exactDiv c e.impl.N) (!SV.usesNeon c e.impl.N) true = true) : P.VecsOk e where
  ok := by rw [hP]; exact float_vecOk c e he hcmp P.E
  faithful := ⟨_, _, _, by rw [hP]; exact SV.float_faithful c e he P.E, by rw [SV.C45_float_available c e he, hcmp]; exact hk⟩
  dvd := by
    have : ∀ n ∈ [1, 2, 4, 8, 16, 32], n ∣ 2 ^ 64 := by decide
    exact this _ (SV.float_arity c e he)

theorem double_vecsOk (c : SV.Cfg) (e : Entry 64) (he : e ∈ SV.doubleVecs c) (hcmp : SV.hasDoubleCmp c e.impl.N = true) {P : Prefilter 64 V}
    (hP : P.F = P.E.f64) : P.VecsOk e where
  ok := by rw [hP]; exact double_vecOk c e he hcmp P.E
  faithful := by
    refine ⟨_, _, _, by rw [hP]; exact SV.double_faithful c e he P.E, ?_⟩
    have hqpx : ¬ (c = .qpx ∧ 2 < e.impl.N) := by
      rintro ⟨rfl, h⟩
      simp only [SV.hasDoubleCmp, decide_eq_true_eq] at hcmp
      omega
    rw [SV.C45_double_available c e he, hcmp, decide_eq_false hqpx]
    exact only_all _
  dvd := by
    have : ∀ n ∈ [1, 2, 4, 8, 16, 32], n ∣ 2 ^ 64 := by decide
    exact this _ (SV.double_arity c e he)

/-- C77 for `float`: on each target and with each arity which has comparisons, loops over all pairs of elements of a soa_array, in which blocks
    of elements are skipped if none of their lanes passes the test, yield what plain nested loops yield (each loop ends after at most
    `size()` iterations). Missing: numbers of elements which are no multiple of the arity (C77_false_size). -/
theorem C77_float_partial (c : SV.Cfg) (e : Entry 32) (he : e ∈ SV.floatVecs c) (hcmp : SV.hasFloatCmp c e.impl.N = true) (E : FEnv)
    (L : Layout V) (B : Bits 32 V) (base : Nat → Nat) (test : Expr 32) (src : Nat → Of) (rel : Rel) (thr : BitVec 32) (bumps : List (Bump 32))
    (hk : test.only (SV.exactDiv c e.impl.N) (!SV.usesNeon c e.impl.N) true = true) (N : Nat)
    (hF : (⟨L, B, base, E, E.f32, test, src, rel, thr, bumps⟩ : Prefilter 32 V).Fits N) (dv : V) (n : Nat) (W : ArrWorld V) (hV : ArrValid L W)
    (s : Nat) (l : List (Cell V)) (h : ListIs L W s N l) (hn : (⟨L, B, base, E, E.f32, test, src, rel, thr, bumps⟩ : Prefilter 32 V).Numbers l)
    (hd : e.impl.N ∣ l.length) (f : Nat) (hf : l.length ≤ f) :
    ∃ W', (⟨L, B, base, E, E.f32, test, src, rel, thr, bumps⟩ : Prefilter 32 V).run e s f n W = .ok (W', .unit) ∧
      ListIs L W' s N ((⟨L, B, base, E, E.f32, test, src, rel, thr, bumps⟩ : Prefilter 32 V).scalars n l) :=
  prefilter_ok (P := ⟨L, B, base, E, E.f32, test, src, rel, thr, bumps⟩) hF (float_vecsOk c e he hcmp rfl hk) dv n f hV h hn hd hf

/-- C77 for `double`. -/
theorem C77_double_partial (c : SV.Cfg) (e : Entry 64) (he : e ∈ SV.doubleVecs c) (hcmp : SV.hasDoubleCmp c e.impl.N = true) (E : FEnv)
    (L : Layout V) (B : Bits 64 V) (base : Nat → Nat) (test : Expr 64) (src : Nat → Of) (rel : Rel) (thr : BitVec 64) (bumps : List (Bump 64)) (N : Nat)
    (hF : (⟨L, B, base, E, E.f64, test, src, rel, thr, bumps⟩ : Prefilter 64 V).Fits N) (dv : V) (n : Nat) (W : ArrWorld V) (hV : ArrValid L W)
    (s : Nat) (l : List (Cell V)) (h : ListIs L W s N l) (hn : (⟨L, B, base, E, E.f64, test, src, rel, thr, bumps⟩ : Prefilter 64 V).Numbers l)
    (hd : e.impl.N ∣ l.length) (f : Nat) (hf : l.length ≤ f) :
    ∃ W', (⟨L, B, base, E, E.f64, test, src, rel, thr, bumps⟩ : Prefilter 64 V).run e s f n W = .ok (W', .unit) ∧
      ListIs L W' s N ((⟨L, B, base, E, E.f64, test, src, rel, thr, bumps⟩ : Prefilter 64 V).scalars n l) :=
  prefilter_ok (P := ⟨L, B, base, E, E.f64, test, src, rel, thr, bumps⟩) hF (double_vecsOk c e he hcmp rfl) dv n f hV h hn hd hf

/-- C77 is false if the arity does not divide the number of elements: whatever the elements are, the program does not end, or its behaviour is
    undefined before (the blocks leave the array). -/
theorem C77_false_size (c : SV.Cfg) (e : Entry 32) (he : e ∈ SV.floatVecs c) (E : FEnv) (L : Layout V) (hL : L.WF) (B : Bits 32 V) (base : Nat → Nat)
    (test : Expr 32) (src : Nat → Of) (rel : Rel) (thr : BitVec 32) (bumps : List (Bump 32)) (hb : bumps ≠ []) (dv : V) (n : Nat) (W : ArrWorld V)
    (hV : ArrValid L W) (s N : Nat) (l : List (Cell V)) (h : ListIs L W s N l) (hd : ¬ e.impl.N ∣ l.length) (f : Nat) :
    ∃ u, (⟨L, B, base, E, E.f32, test, src, rel, thr, bumps⟩ : Prefilter 32 V).run e s f (n + 1) W = .error u := by
  obtain ⟨a, ha, hR⟩ := listIs_rep hL dv hV h
  refine Prefilter.run_never ?_ hd hb ⟨a, ha, hR.len⟩ f n
  have : ∀ n ∈ [1, 2, 4, 8, 16, 32], n ∣ 2 ^ 64 := by decide
  exact this _ (SV.float_arity c e he)

/-- Which numbers of elements the program can handle. -/
theorem C77_float_iff (c : SV.Cfg) (e : Entry 32) (he : e ∈ SV.floatVecs c) (hcmp : SV.hasFloatCmp c e.impl.N = true) (E : FEnv)
    (L : Layout V) (B : Bits 32 V) (base : Nat → Nat) (test : Expr 32) (src : Nat → Of) (rel : Rel) (thr : BitVec 32) (bumps : List (Bump 32))
    (hk : test.only (SV.exactDiv c e.impl.N) (!SV.usesNeon c e.impl.N) true = true) (hb : bumps ≠ []) (N : Nat)
    (hF : (⟨L, B, base, E, E.f32, test, src, rel, thr, bumps⟩ : Prefilter 32 V).Fits N) (dv : V) (n : Nat) (W : ArrWorld V) (hV : ArrValid L W)
    (s : Nat) (l : List (Cell V)) (h : ListIs L W s N l) (hn : (⟨L, B, base, E, E.f32, test, src, rel, thr, bumps⟩ : Prefilter 32 V).Numbers l) :
    (∃ f W' o, (⟨L, B, base, E, E.f32, test, src, rel, thr, bumps⟩ : Prefilter 32 V).run e s f (n + 1) W = .ok (W', o)) ↔ e.impl.N ∣ l.length := by
  constructor
  · rintro ⟨f, W', o, h1⟩
    by_contra hd
    obtain ⟨u, hu⟩ := C77_false_size c e he E L hF.wf B base test src rel thr bumps hb dv n W hV s N l h hd f
    rw [hu] at h1
    cases h1
  · intro hd
    obtain ⟨W', h1, -⟩ := C77_float_partial c e he hcmp E L B base test src rel thr bumps hk N hF dv (n + 1) W hV s l h hn hd l.length (le_refl _)
    exact ⟨_, W', _, h1⟩

namespace Demo

/-- `posX`, `posY` and `posZ` of the inner loop's element are the variables 0 to 2, those of the outer loop's element are 3 to 5. -/
def dist2 : Expr 32 :=
  let d := fun k => Expr.sub (.var k) (.var (k + 3))
  .add (.add (.mul (d 0) (d 0)) (.mul (d 1) (d 1))) (.mul (d 2) (d 2))

/-- `particles[k].r() += particles[i].r()` -/
def plus (r : Nat) : Bump 32 := ⟨r, .add (.var 0) (.var 1), fun v => ⟨v == 0, r⟩⟩

/-- ParticleInteractorGold: members 0 to 2 are the position, 3 to 5 the velocity. -/
def interact (thr : BitVec 32) : Prefilter 32 (BitVec 32) :=
  ⟨particle, B, fun s => 4096 * (1 + 1000 * s), FEnv.demo, FEnv.demo.f32, dist2, fun v => ⟨v < 3, v % 3⟩, .lt, thr, [plus 3, plus 4, plus 5]⟩

theorem interact_fits (thr : BitVec 32) : (interact thr).Fits 8208 where
  wf := particle_wf
  base := fun s => ⟨1024 * (1 + 1000 * s), by simp only [interact]; omega⟩
  tested := by
    intro r hr
    have : r ∈ [0, 1, 2] := by
      revert hr
      simp only [Prefilter.tested, interact, dist2, Expr.vars]
      simp
    rcases this with _ | ⟨_, _ | ⟨_, _ | ⟨_, h⟩⟩⟩
    · exact ⟨_, rfl, rfl, show 4 ∣ 8208 * offset particle 0 by decide⟩
    · exact ⟨_, rfl, rfl, show 4 ∣ 8208 * offset particle 1 by decide⟩
    · exact ⟨_, rfl, rfl, show 4 ∣ 8208 * offset particle 2 by decide⟩
    · cases h
  reads := by
    intro b hb r hr
    have : r ∈ [3, 4, 5] := by
      simp only [interact, List.mem_cons, List.not_mem_nil, or_false] at hb
      rcases hb with rfl | rfl | rfl <;> revert hr <;> simp [Bump.reads, plus, Expr.vars] <;> omega
    simp only [List.mem_cons, List.not_mem_nil, or_false] at this
    rcases this with rfl | rfl | rfl <;> rfl

/-- 16 elements on AVX, vectors of 8: what ParticleInteractorGold computes is what nested loops compute. -/
example : ∃ W e W', (interact 5).run e 0 16 2 W = .ok (W', .unit) ∧
    ListIs particle W' 0 8208 ((interact 5).scalars 2 (changed 16)) := by
  obtain ⟨W, hV, hA⟩ := filled_changed
  obtain ⟨e, he, hn⟩ := avx8
  obtain ⟨W', h1, h2⟩ := C77_float_partial .avx e he (by rw [hn]; rfl) FEnv.demo particle B _ _ _ _ _ _ (by rw [hn]; rfl) 8208 (interact_fits 5) 0 2 W hV 0
    _ hA.left (fun _ _ _ _ => rfl) (by rw [hn]; exact ⟨2, rfl⟩) 16 (by decide)
  exact ⟨W, e, W', h1, h2⟩

/-- The nested loops change something: a particle which is near another one, and one which is not. -/
example : ((interact 5).scalars 1 (changed 3)).map (fun c => c 3 0) ≠ (changed 3).map (fun c => c 3 0) := by decide

/-- 12 elements: the loops never end properly. -/
example : ∃ W e, ListIs particle W 0 8208 (List.replicate 12 fun _ _ => 3) ∧ ∀ f, ∃ u, (interact 5).run e 0 f 1 W = .error u := by
  obtain ⟨W, hV, hA⟩ := filled 12 (by decide)
  obtain ⟨e, he, hn⟩ := avx8
  exact ⟨W, e, hA.left, fun f => C77_false_size .avx e he FEnv.demo particle particle_wf B _ _ _ _ _ _ (by simp) 0 0 W hV 0 8208 _ hA.left
    (by rw [hn]; decide) f⟩

end Demo

end LFA.GK
