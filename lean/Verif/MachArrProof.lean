import Verif.MachArr
import Verif.MachGridProof
import Verif.SoaArrayProof

/-
  On legal programs the functions of `Verif.MachArr` agree with those of `Verif.SoaArray`.
-/
set_option linter.unusedSectionVars false
namespace LFA.Mach
open SArr (dim)

theorem obind {α β : Type} {o : Option α} {a : α} (h : o = some a) (f : α → Option β) : (o >>= f) = f a := by rw [h]; rfl

theorem ebind {α β : Type} (a : α) (f : α → Except UB β) : (Except.ok a : Except UB α).bind f = f a := rfl

theorem int32_ok {a : Int} (h1 : -2 ^ 31 ≤ a) (h2 : a < 2 ^ 31) : int32 a = some a := if_pos ⟨h1, h2⟩

theorem int32_nat {a : Nat} (h : a < 2 ^ 31) : int32 (a : Int) = some (a : Int) := int32_ok (by omega) (by omega)

theorem long_nat {a : Nat} (h : a < 2 ^ 31) : long (a : Int) = some (a : Int) := long_ok (by omega) (by omega)

theorem size_small {a : Nat} (h : a ≤ 2 ^ 62) : size (a : Int) = some (a : Int) := size_ok (by omega) (by omega)

theorem arrAt_ok {N i : Nat} (h : i < 2 ^ 31) : arrAt N (i : Int) = some (accAt (dim N) (i : Int)) := by
  unfold arrAt; rw [obind (int32_nat h)]

theorem arrAt_zero (N : Nat) : arrAt N 0 = some (accAt (dim N) 0) := by
  have := arrAt_ok (N := N) (i := 0) (by omega)
  simpa using this

theorem arrAtSz_ok {N i : Nat} (h : i < 2 ^ 31) : arrAtSz N i = some (accAt (dim N) (i : Int)) := by
  unfold arrAtSz; rw [obind (long_nat h), arrAt_ok h]

theorem small_dim {N : Nat} (h0 : 0 < N) (h : N < 2 ^ 31) : Small (dim N) :=
  ⟨h0, Nat.one_pos, Nat.one_pos, by show N * 1 * 1 ≤ 2 ^ 31; omega⟩

section
variable {V : Type} [DecidableEq V] {L : Layout V}

theorem on_dim {N i : Nat} (h : i ≤ N) : On (dim N) (accAt (dim N) (i : Int)) i i :=
  On.accAt (by rw [SArr.prod_dim]; exact h)

theorem on_dim0 (N : Nat) : On (dim N) (accAt (dim N) 0) 0 0 := by
  have := on_dim (N := N) (i := 0) (Nat.zero_le _)
  simpa using this

variable (hL : L.WF) (hagg : aggSize L ≤ 2 ^ 31)

theorem bytes_le {L : Layout V} (hagg : aggSize L ≤ 2 ^ 31) {N : Nat} (h : N < 2 ^ 31) : aggSize L * N ≤ 2 ^ 62 :=
  pow62 ▸ Nat.mul_le_mul hagg (Nat.le_of_lt h)

include hL hagg

theorem arrConstructAll_eq {N : Nat} (h0 : 0 < N) (h : N < 2 ^ 31) : arrConstructAll L N = SArr.constructAll L N := by
  have hs := small_dim h0 h
  have hb : arrBytes L N = some ((aggSize L * N : Nat) : Int) := by
    unfold arrBytes; rw [← Nat.cast_mul]; exact size_small (bytes_le hagg h)
  unfold arrConstructAll
  rw [chk_some hb, Int.toNat_natCast, walk_loop _ _ (by omega) (by omega)]
  unfold SArr.constructAll
  rw [LFA.walk_eq]
  refine loopM_congr _ _ _ _ (fun x hx b' => ?_)
  rw [Int.zero_add]
  have := constructMembers_eq hL hagg hs (on_dim (Nat.le_of_lt hx)) b'
  rw [SArr.prod_dim] at this
  exact this

theorem fill_eq {N n : Nat} (h0 : 0 < N) (h : N < 2 ^ 31) (hn : n ≤ N) {b : Block V} (hb : b.size = aggSize L * N)
    (v : Cell V) :
    walk n 0 (fun _ idx b' => setCell L b.size (accAt (dim N) idx) v b') b =
      LFA.walk n 0 (fun _ idx b' => (SArr.acc N idx).setCell L v b') b := by
  have hs := small_dim h0 h
  rw [walk_loop _ _ (by omega) (by omega), LFA.walk_eq]
  refine loopM_congr _ _ _ _ (fun x hx b' => ?_)
  rw [Int.zero_add, hb]
  have := setCell_eq hL hagg hs (on_dim (N := N) (i := x) (by omega)) v b'
  rw [SArr.prod_dim] at this
  exact this

theorem arrNew_eq (dv : V) {N n : Nat} (h0 : 0 < N) (h : N < 2 ^ 31) (hn : n ≤ N) (v : Cell V) :
    arrNew L N n v = SArr.new L N n v := by
  unfold arrNew SArr.new
  rw [arrConstructAll_eq hL hagg h0 h]
  obtain ⟨b, k1, k2, -⟩ := SArr.constructAll_ok hL dv N
  rw [k1, ebind, ebind, chk_some (int32_nat (by omega)), Int.toNat_natCast, fill_eq hL hagg h0 h hn k2]
  have : (toInt32 n).toNat = n := by rw [toInt32_small (by omega), Int.toNat_natCast]
  rw [this]

theorem arrDtor_eq {a : SArr V} {N : Nat} {l : List (Cell V)} (h0 : 0 < N) (h : Rep L a N l) :
    arrDtor L a = SArr.dtor L a := by
  have hs := small_dim h0 h.int
  have hi := h.int
  unfold arrDtor SArr.dtor
  rw [h.cap, h.size, walk_loop _ _ (by omega) (by omega), LFA.walk_eq]
  refine loopM_congr _ _ _ _ (fun x hx b' => ?_)
  rw [Int.zero_add]
  have := destroyMembers_eq hL hagg hs (on_dim (N := N) (i := x) (by omega)) b'
  rw [SArr.prod_dim] at this
  exact this

theorem arrCopyIn_eq {a : SArr V} {N M m : Nat} (h0 : 0 < N) (h0' : 0 < M) (hN : N < 2 ^ 31) (hM : M < 2 ^ 31) (ha : a.N = N)
    (hb : a.data.size = aggSize L * N) (hm : m ≤ M) (src : Block V → Block V) :
    arrCopyIn L a M m (aggSize L * M) src = SArr.copyIn L a M m src := by
  unfold arrCopyIn SArr.copyIn
  rw [ha]
  by_cases hc : m > N
  · rw [if_pos hc, if_pos hc]
  · rw [if_neg hc, if_neg hc, chk_some (arrAt_zero N), chk_some (arrAt_zero M), hb]
    have := copyMembers_eq hL hagg (small_dim h0 hN) (small_dim h0' hM) (on_dim0 N) (on_dim0 M) (count := m)
      (by rw [SArr.prod_dim]; omega) (by rw [SArr.prod_dim]; omega) src a.data
    rw [SArr.prod_dim, SArr.prod_dim] at this
    rw [this]
    rfl

theorem setCell_arr {a : SArr V} {N i : Nat} {l : List (Cell V)} (h0 : 0 < N) (h : Rep L a N l) (hi : i ≤ N) (c : Cell V) :
    setCell L a.data.size (accAt (dim a.N) (i : Int)) c a.data = (SArr.acc a.N (i : Int)).setCell L c a.data := by
  have := setCell_eq hL hagg (small_dim h0 h.int) (on_dim hi) c a.data
  rw [SArr.prod_dim] at this
  rw [h.cap, h.size, this]; rfl

theorem getCell_arr {a : SArr V} {N i : Nat} {l : List (Cell V)} (h0 : 0 < N) (h : Rep L a N l) (hi : i ≤ N) (t : Cell V) :
    getCell L a.data.size (accAt (dim a.N) (i : Int)) a.data t = (SArr.acc a.N (i : Int)).getCell L a.data t := by
  have := getCell_eq hL hagg (small_dim h0 h.int) (on_dim hi) a.data t
  rw [SArr.prod_dim] at this
  rw [h.cap, h.size, this]; rfl

theorem arrayRef_arr {a : SArr V} {N i r k : Nat} {m : Member V} {l : List (Cell V)} (h0 : 0 < N) (h : Rep L a N l) (hi : i ≤ N)
    (hm : L[r]? = some m) (hk : k < m.elems) :
    arrayRef L a.data.size (accAt (dim a.N) (i : Int)) r m k = some ((SArr.acc a.N (i : Int)).arrayRef L r m k) := by
  have := arrayRef_ok hL hagg (small_dim h0 h.int) (on_dim hi) hm hk
  rw [SArr.prod_dim] at this
  rw [h.cap, h.size, this]
  have e := Acc.arrayRef_slot L (A := SArr.acc N (i : Int)) (i := i) (accAt_At _ _) r m k (by omega)
  rw [e]
  show _ = some ((slot (dim N).prod _ _ _ _ : Nat) : Int)
  rw [SArr.prod_dim]

theorem arrPush_eq {a : SArr V} {N : Nat} {l : List (Cell V)} (h0 : 0 < N) (h : Rep L a N l) (c : Cell V) :
    arrPush L a c = SArr.push L a c := by
  have hi := h.int
  have hf := h.fits
  have hn := h.len
  have hN := h.cap
  unfold arrPush SArr.push
  by_cases hc : a.n ≥ a.N
  · rw [if_pos hc, if_pos hc]
  · rw [if_neg hc, if_neg hc, chk_some (arrAtSz_ok (by omega)), setCell_arr hL hagg h0 h (by omega)]
    have e : SArr.accSz a.N a.n = SArr.acc a.N (a.n : Int) := by
      unfold SArr.accSz; rw [toInt32_small (by omega)]
    rw [e]
    cases (SArr.acc a.N (a.n : Int)).setCell L c a.data with
    | error u => rfl
    | ok b =>
      have hs : size ((a.n : Int) + 1) = some ((a.n + 1 : Nat) : Int) := by
        have := size_small (a := a.n + 1) (by omega)
        rw [Nat.cast_add, Nat.cast_one] at this ⊢
        exact this
      rw [ebind, chk_some hs, Int.toNat_natCast]

omit hL hagg in
theorem sizePred {n : Nat} (h0 : n ≠ 0) (h : n < 2 ^ 31) : size ((n : Int) - 1) = some ((n - 1 : Nat) : Int) := by
  have := size_small (a := n - 1) (by omega)
  have e : ((n - 1 : Nat) : Int) = (n : Int) - 1 := by omega
  rw [e] at this ⊢
  exact this

omit hL hagg in
theorem arrPop_eq {a : SArr V} {N : Nat} {l : List (Cell V)} (h : Rep L a N l) : arrPop a = SArr.pop a := by
  have hi := h.int
  have hf := h.fits
  have hn := h.len
  unfold arrPop SArr.pop
  by_cases hc : a.n = 0
  · rw [if_pos hc, if_pos hc]
  · rw [if_neg hc, if_neg hc, chk_some (sizePred hc (by omega)), Int.toNat_natCast]

omit hL hagg in
theorem thenRes_ok {α σ β : Type} {x : Except UB α} {a : α} (h : x = .ok a) (f : α → Res σ β) : thenRes x f = f a := by
  rw [h]; rfl

omit hL hagg in
theorem load_sum {a : SArr V} {M j num off t : Nat} (hs : (num + off) % 2 ^ 64 = t) (src : Block V → Block V) :
    SArr.load L a M src j num off = (if max a.n t > a.N then .throw SArr.tooLarge a
      else match (SArr.accSz a.N off).loadRaw L src num j M a.data with
        | .ok b => .ok () ⟨a.N, max a.n t, b⟩
        | .error u => .ub u) := by
  unfold SArr.load
  rw [hs]
  rfl

theorem arrLoadCopy_eq {a : SArr V} {N M j num off : Nat} {l : List (Cell V)} (h0 : 0 < N) (h : Rep L a N l) (hM : M < 2 ^ 31)
    (hj : j + num ≤ M) (hle : off + num ≤ N) (src : Block V → Block V) :
    arrLoadCopy L a M (aggSize L * M) src j num off = (SArr.accSz a.N off).loadRaw L src num j M a.data := by
  have hi := h.int
  have e : SArr.accSz a.N off = accAt (dim N) (off : Int) := by
    unfold SArr.accSz SArr.acc; rw [toInt32_small (by omega), h.cap]
  have hbl := bytes_le hagg hM
  unfold arrLoadCopy
  rw [chk_some (arrAtSz_ok (by omega)), chk_some (long_nat (by omega)), chk_some (size_small (by omega)),
    chk_some (long_nat hM), chk_some (size_small (by omega)), Int.toNat_natCast, Int.toNat_natCast, e, h.cap, h.size]
  have := loadRaw_eq hL hagg (small_dim h0 hi) (on_dim (N := N) (i := off) (by omega)) (ns := aggSize L * M) src
    (count := num) (off := j) (stride := M) (by rw [SArr.prod_dim]; omega) hj (by rw [Nat.mul_comm]) (by omega) a.data
  rw [SArr.prod_dim] at this
  exact this

theorem arrLoad_eq {a : SArr V} {N M j num off : Nat} {l : List (Cell V)} (h0 : 0 < N) (h : Rep L a N l) (hM : M < 2 ^ 31)
    (hj : j + num ≤ M) (hoff : off ≤ a.n) (src : Block V → Block V) :
    arrLoad L a M (aggSize L * M) src j num off = SArr.load L a M src j num off := by
  have hi := h.int
  have hf := h.fits
  have hn := h.len
  have hN := h.cap
  have hs : arrLoadEnd num off = .ok (num + off) := by
    unfold arrLoadEnd; rw [← Nat.cast_add, chk_some (size_small (by omega)), Int.toNat_natCast]
  unfold arrLoad
  rw [thenRes_ok hs, load_sum (Nat.mod_eq_of_lt (by omega))]
  by_cases hc : max a.n (num + off) > a.N
  · rw [if_pos hc, if_pos hc]
  · rw [if_neg hc, if_neg hc, arrLoadCopy_eq hL hagg h0 h hM hj (by omega)]
    cases (SArr.accSz a.N off).loadRaw L src num j M a.data <;> rfl

theorem arrIter_eq {a : SArr V} {N : Nat} {l : List (Cell V)} (h0 : 0 < N) (h : Rep L a N l) (t : Cell V) :
    arrIter L a t = SArr.iter L a t := by
  have hi := h.int
  have hf := h.fits
  have hn := h.len
  unfold arrIter SArr.iter
  rw [chk_some (arrAtSz_ok (by omega)), toInt32_small (by omega), if_neg (by omega), Int.toNat_natCast]
  show walk ((a.n : Int)).toNat 0 _ [] = _
  rw [Int.toNat_natCast, walk_loop _ _ (by omega) (by omega), LFA.walk_eq]
  refine loopM_congr _ _ _ _ (fun x hx b' => ?_)
  rw [Int.zero_add, getCell_arr hL hagg h0 h (by omega)]

theorem arrBack_eq {a : SArr V} {N : Nat} {l : List (Cell V)} (h0 : 0 < N) (h : Rep L a N l) (hne : l ≠ []) (t : Cell V) :
    arrBack L a t = (SArr.accSz a.N (SArr.pred64 a.n)).getCell L a.data t := by
  have hi := h.int
  have hf := h.fits
  have hn := h.len
  have hpos : a.n ≠ 0 := by
    rw [hn]; exact fun e => hne (List.eq_nil_of_length_eq_zero e)
  have e : SArr.accSz a.N (SArr.pred64 a.n) = SArr.acc a.N ((a.n - 1 : Nat) : Int) := by
    have : SArr.pred64 a.n = a.n - 1 := by unfold SArr.pred64; omega
    unfold SArr.accSz; rw [this, toInt32_small (by omega)]
  unfold arrBack
  rw [chk_some (sizePred hpos (by omega)), Int.toNat_natCast, chk_some (arrAtSz_ok (by omega)), e,
    getCell_arr hL hagg h0 h (by omega)]

omit hL in
theorem arrByteSize_eq {a : SArr V} {N : Nat} {l : List (Cell V)} (h : Rep L a N l) :
    arrByteSize L a = .ok (a.n * aggSize L) := by
  have hi := h.int
  have hf := h.fits
  have hn := h.len
  have hb := bytes_le (N := a.n) hagg (by omega)
  have hs : size ((a.n : Int) * aggSize L) = some ((a.n * aggSize L : Nat) : Int) := by
    rw [← Nat.cast_mul]; exact size_small (by rw [Nat.mul_comm]; exact hb)
  unfold arrByteSize
  rw [chk_some hs, Int.toNat_natCast]

/-- All arrays have a positive capacity (`char my_data[0]` is ill-formed). -/
def Pos (σ : ArrSpec.State V) : Prop := ∀ s N l, σ s = some (N, l) → 0 < N

/-- New arrays have a positive capacity. -/
def FitsA : ArrOp V → Prop
  | .new _ N _ _ | .copy _ N _ _ => 0 < N
  | _ => True

omit hL hagg [DecidableEq V] in
theorem Pos.upd {σ : ArrSpec.State V} (h : Pos σ) (s : Nat) {N : Nat} (hN : 0 < N) (l : List (Cell V)) :
    Pos (ArrWorld.upd σ s (some (N, l))) := by
  intro s' N' l' e
  unfold ArrWorld.upd at e
  split at e
  · cases e; exact hN
  · exact h s' N' l' e

omit hL hagg [DecidableEq V] in
theorem Pos.rm {σ : ArrSpec.State V} (h : Pos σ) (s : Nat) : Pos (ArrWorld.upd σ s none) := by
  intro s' N' l' e
  unfold ArrWorld.upd at e
  split at e
  · cases e
  · exact h s' N' l' e

omit hL hagg in
theorem withA_congr {w : ArrWorld V} {s : Nat} {a : SArr V} (ha : w.a s = some a)
    {f g : SArr V → Except UB (ArrWorld V × ArrOut V)} (h : f a = g a) : w.withA s f = w.withA s g := by
  unfold ArrWorld.withA; rw [ha]; exact h

omit hL hagg in
theorem load_need {N : Nat} {l src : List (Cell V)} {j num off : Nat} {σ : ArrSpec.State V} {s : Nat}
    {r : ArrSpec.State V × ArrOut V}
    (h : (ArrSpec.load N l src j num off).map (fun p => (ArrWorld.upd σ s (some (N, p.1)), p.2)) = some r) :
    off ≤ l.length ∧ j + num ≤ src.length := by
  unfold ArrSpec.load at h
  split at h
  · rename_i hc; exact ⟨hc.1, hc.2.1⟩
  · cases h

omit hL hagg in
theorem arrStep_new {w : ArrWorld V} {s : Nat} (hw : w.a s = none) (N n : Nat) (v : Cell V) :
    arrStep L w (.new s N n v) = arrPut w s (arrNew L N n v) := by
  unfold arrStep
  dsimp only
  rw [hw]

omit hL hagg in
theorem step_new {w : ArrWorld V} {s : Nat} (hw : w.a s = none) (N n : Nat) (v : Cell V) :
    w.step L (.new s N n v) = arrPut w s (SArr.new L N n v) := by
  unfold ArrWorld.step
  dsimp only
  rw [hw]
  dsimp only
  cases SArr.new L N n v <;> rfl

theorem arrStep_eq (dv : V) {w : ArrWorld V} {σ : ArrSpec.State V} (hR : ArrR L w σ) (hpos : Pos σ) (op : ArrOp V)
    {r : ArrSpec.State V × ArrOut V} (h : ArrSpec.step L σ op = some r) (hfit : FitsA op) :
    arrStep L w op = w.step L op := by
  cases op with
  | new s N n v =>
    simp only [ArrSpec.step] at h
    cases hs : σ s with
    | some p => rw [hs] at h; cases h
    | none =>
      simp only [hs] at h
      split at h
      · rename_i hc
        rw [step_new (hR.absent hs), arrStep_new (hR.absent hs), arrNew_eq hL hagg dv hfit hc.2 hc.1]
      · cases h
  | copy s N t cst =>
    simp only [ArrSpec.step] at h
    cases hs : σ s with
    | some p => rw [hs] at h; cases h
    | none =>
      cases ht : σ t with
      | none => rw [hs, ht] at h; cases h
      | some p =>
        obtain ⟨M, l⟩ := p
        simp only [hs, ht] at h
        split at h
        · rename_i hc
          obtain ⟨o, ho, hrep⟩ := hR.arr ht
          have h0 := hpos t M l ht
          have hw := hR.absent hs
          unfold arrStep ArrWorld.step
          dsimp only
          rw [hw]
          refine withA_congr ho ?_
          by_cases hcst : cst = true ∧ N = o.N
          · rw [if_pos hcst, if_pos hcst]
          · rw [if_neg hcst, if_neg hcst, arrConstructAll_eq hL hagg hfit hc.1]
            obtain ⟨b, k1, k2, -⟩ := SArr.constructAll_ok hL dv N
            have hl := hrep.len
            have hf := hrep.fits
            rw [k1, hrep.size, hrep.cap]
            dsimp only
            rw [arrCopyIn_eq hL hagg hfit h0 hc.1 hrep.int rfl k2 (by omega)]
            cases SArr.copyIn L ⟨N, 0, b⟩ M o.n fun _ => o.data <;> rfl
        · cases h
  | assign s t cst =>
    simp only [ArrSpec.step] at h
    cases hs : σ s with
    | none => rw [hs] at h; cases h
    | some p0 =>
      cases ht : σ t with
      | none => rw [hs, ht] at h; cases h
      | some p =>
        obtain ⟨N, l⟩ := p0
        obtain ⟨M, l'⟩ := p
        obtain ⟨a, ha, hrep⟩ := hR.arr hs
        obtain ⟨o, ho, hrep'⟩ := hR.arr ht
        have h0 := hpos s N l hs
        have h0' := hpos t M l' ht
        refine withA_congr ha (withA_congr ho ?_)
        have hl := hrep'.len
        have hf := hrep'.fits
        by_cases hcst : cst = true ∧ a.N = o.N
        · rw [if_pos hcst, if_pos hcst]
        · rw [if_neg hcst, if_neg hcst, hrep'.size]
          have := arrCopyIn_eq hL hagg h0 h0' hrep.int hrep'.int hrep.cap hrep.size (m := o.n) (by omega)
            (ArrWorld.srcOf s t o)
          rw [hrep'.cap, this]
  | destroy s =>
    simp only [ArrSpec.step] at h
    cases hs : σ s with
    | none => rw [hs] at h; cases h
    | some p =>
      obtain ⟨N, l⟩ := p
      obtain ⟨a, ha, hrep⟩ := hR.arr hs
      have h0 := hpos s N l hs
      refine withA_congr ha ?_
      rw [arrDtor_eq hL hagg h0 hrep]
      cases SArr.dtor L a <;> rfl
  | set s i c =>
    simp only [ArrSpec.step] at h
    cases hs : σ s with
    | none => rw [hs] at h; cases h
    | some p =>
      obtain ⟨N, l⟩ := p
      obtain ⟨a, ha, hrep⟩ := hR.arr hs
      have h0 := hpos s N l hs
      simp only [hs] at h
      split at h
      · rename_i hc
        obtain ⟨i, rfl⟩ := Int.eq_ofNat_of_zero_le hc.1
        have hi := hrep.int
        have hf := hrep.fits
        have := hc.2
        refine withA_congr ha ?_
        rw [chk_some (arrAt_ok (by omega)), setCell_arr hL hagg h0 hrep (by omega)]
      · cases h
  | get s i t =>
    simp only [ArrSpec.step] at h
    cases hs : σ s with
    | none => rw [hs] at h; cases h
    | some p =>
      obtain ⟨N, l⟩ := p
      obtain ⟨a, ha, hrep⟩ := hR.arr hs
      have h0 := hpos s N l hs
      simp only [hs] at h
      split at h
      · cases h
      · rename_i hc
        split at h
        · rename_i c hi
          obtain ⟨i, rfl⟩ := Int.eq_ofNat_of_zero_le (show 0 ≤ i by omega)
          have hlt := (List.getElem?_eq_some_iff.1 hi).1
          rw [Int.toNat_natCast] at hlt
          have hi := hrep.int
          have hf := hrep.fits
          refine withA_congr ha ?_
          rw [chk_some (arrAt_ok (by omega)), getCell_arr hL hagg h0 hrep (by omega)]
        · cases h
  | poke s i r' k v =>
    simp only [ArrSpec.step] at h
    cases hs : σ s with
    | none => rw [hs] at h; cases h
    | some p =>
      obtain ⟨N, l⟩ := p
      obtain ⟨a, ha, hrep⟩ := hR.arr hs
      have h0 := hpos s N l hs
      cases hm : L[r']? with
      | none => rw [hs, hm] at h; cases h
      | some m =>
        simp only [hs, hm] at h
        split at h
        · cases h
        · rename_i hc
          split at h
          · rename_i c hi
            obtain ⟨i, rfl⟩ := Int.eq_ofNat_of_zero_le (show 0 ≤ i by omega)
            have hlt := (List.getElem?_eq_some_iff.1 hi).1
            rw [Int.toNat_natCast] at hlt
            have hi := hrep.int
            have hf := hrep.fits
            refine withA_congr ha ?_
            rw [hm]
            dsimp only
            rw [chk_some (arrAt_ok (by omega)), chk_some (arrayRef_arr hL hagg h0 hrep (by omega) hm (by omega))]
          · cases h
  | peek s i r' k =>
    simp only [ArrSpec.step] at h
    cases hs : σ s with
    | none => rw [hs] at h; cases h
    | some p =>
      obtain ⟨N, l⟩ := p
      obtain ⟨a, ha, hrep⟩ := hR.arr hs
      have h0 := hpos s N l hs
      cases hm : L[r']? with
      | none => rw [hs, hm] at h; cases h
      | some m =>
        simp only [hs, hm] at h
        split at h
        · cases h
        · rename_i hc
          split at h
          · rename_i c hi
            obtain ⟨i, rfl⟩ := Int.eq_ofNat_of_zero_le (show 0 ≤ i by omega)
            have hlt := (List.getElem?_eq_some_iff.1 hi).1
            rw [Int.toNat_natCast] at hlt
            have hi := hrep.int
            have hf := hrep.fits
            refine withA_congr ha ?_
            rw [hm]
            dsimp only
            rw [chk_some (arrAt_ok (by omega)), chk_some (arrayRef_arr hL hagg h0 hrep (by omega) hm (by omega))]
          · cases h
  | push s c =>
    simp only [ArrSpec.step] at h
    cases hs : σ s with
    | none => rw [hs] at h; cases h
    | some p =>
      obtain ⟨N, l⟩ := p
      obtain ⟨a, ha, hrep⟩ := hR.arr hs
      have h0 := hpos s N l hs
      refine withA_congr ha ?_
      rw [arrPush_eq hL hagg h0 hrep]
  | pop s =>
    simp only [ArrSpec.step] at h
    cases hs : σ s with
    | none => rw [hs] at h; cases h
    | some p =>
      obtain ⟨N, l⟩ := p
      obtain ⟨a, ha, hrep⟩ := hR.arr hs
      have h0 := hpos s N l hs
      refine withA_congr ha ?_
      rw [arrPop_eq hrep]
  | clear s => rfl
  | back s t =>
    simp only [ArrSpec.step] at h
    cases hs : σ s with
    | none => rw [hs] at h; cases h
    | some p =>
      obtain ⟨N, l⟩ := p
      obtain ⟨a, ha, hrep⟩ := hR.arr hs
      have h0 := hpos s N l hs
      have hne : l ≠ [] := by
        rintro rfl
        simp only [hs] at h
        cases h
      refine withA_congr ha ?_
      rw [arrBack_eq hL hagg h0 hrep hne]
  | load s t j num off =>
    simp only [ArrSpec.step] at h
    cases hs : σ s with
    | none => rw [hs] at h; cases h
    | some p0 =>
      cases ht : σ t with
      | none => rw [hs, ht] at h; cases h
      | some p =>
        obtain ⟨N, l⟩ := p0
        obtain ⟨M, l'⟩ := p
        obtain ⟨a, ha, hrep⟩ := hR.arr hs
        obtain ⟨o, ho, hrep'⟩ := hR.arr ht
        have h0 := hpos s N l hs
        have h0' := hpos t M l' ht
        simp only [hs, ht] at h
        split at h
        · obtain ⟨k1, k2⟩ := load_need h
          have hl := hrep.len
          have hf := hrep'.fits
          refine withA_congr ha (withA_congr ho ?_)
          rw [hrep'.size, hrep'.cap, arrLoad_eq hL hagg h0 hrep hrep'.int (by omega) (by omega)]
        · cases h
  | append s t j num =>
    simp only [ArrSpec.step] at h
    cases hs : σ s with
    | none => rw [hs] at h; cases h
    | some p0 =>
      cases ht : σ t with
      | none => rw [hs, ht] at h; cases h
      | some p =>
        obtain ⟨N, l⟩ := p0
        obtain ⟨M, l'⟩ := p
        obtain ⟨a, ha, hrep⟩ := hR.arr hs
        obtain ⟨o, ho, hrep'⟩ := hR.arr ht
        have h0 := hpos s N l hs
        have h0' := hpos t M l' ht
        simp only [hs, ht] at h
        obtain ⟨k1, k2⟩ := load_need h
        have hl := hrep.len
        have hf := hrep'.fits
        refine withA_congr ha (withA_congr ho ?_)
        rw [hrep'.size, hrep'.cap, arrLoad_eq hL hagg h0 hrep hrep'.int (by omega) (by omega)]
  | size s => rfl
  | capacity s => rfl
  | byteSize s =>
    simp only [ArrSpec.step] at h
    cases hs : σ s with
    | none => rw [hs] at h; cases h
    | some p =>
      obtain ⟨N, l⟩ := p
      obtain ⟨a, ha, hrep⟩ := hR.arr hs
      have h0 := hpos s N l hs
      refine withA_congr ha ?_
      rw [arrByteSize_eq hagg hrep]
      rfl
  | iter s t =>
    simp only [ArrSpec.step] at h
    cases hs : σ s with
    | none => rw [hs] at h; cases h
    | some p =>
      obtain ⟨N, l⟩ := p
      obtain ⟨a, ha, hrep⟩ := hR.arr hs
      have h0 := hpos s N l hs
      refine withA_congr ha ?_
      rw [arrIter_eq hL hagg h0 hrep]
  | swap s t => rfl

end
end LFA.Mach
