/-
  C84: a functor which uses intrinsics on pointers from accessors.
-/
import Verif.IntrinsicKernel
import Verif.Props.PairKernel
import Verif.Props.LineKernel
import Verif.SV.Ieee
set_option linter.unusedSectionVars false
namespace LFA.GK
open SV (FEnv FOps Mem Writes M128d _mm_load_pd _mm_loadu_pd _mm_stream_pd _mm_mul_pd _mm_add_pd _mm_set1_pd)
open Thr (Loc Ref InGrid ValueIs InA valA inA_iff peek_step poke_step)

variable {V : Type} [DecidableEq V] {C : Cfg V} {dv : V}

/-! ### What is computed -/

/-- The old temperature of a cell. -/
def Jacobi.num (K : Jacobi) (B : Bits 64 V) (s : Nat) (σ : Loc → V) (x y z : Int) : BitVec 64 := (B.bits (σ ⟨s, x, y, z, K.r, K.k⟩)).getD 0

/-- The weighted sum of seven cells, in the order of the scalar code. -/
def Jacobi.sum7 (K : Jacobi) (B : Bits 64 V) (F : FOps 64) (s : Nat) (σ : Loc → V) (x y z : Int) : V :=
  let n := K.num B s σ
  B.val (F.add (F.add (F.add (F.add (F.add (F.add (F.mul (n x y (z - 1)) K.S) (F.mul (n x (y - 1) z) K.T)) (F.mul (n (x - 1) y z) K.W))
    (F.mul (n x y z) K.C)) (F.mul (n (x + 1) y z) K.E)) (F.mul (n x (y + 1) z) K.B)) (F.mul (n x y (z + 1)) K.N))

/-- The weighted sum of the six neighbours. -/
def Jacobi.sum6 (K : Jacobi) (B : Bits 64 V) (F : FOps 64) (s : Nat) (σ : Loc → V) (x y z : Int) : V :=
  let n := K.num B s σ
  B.val (F.add (F.add (F.add (F.add (F.add (F.mul (n x (y - 1) z) K.T) (F.mul (n x y (z - 1)) K.S)) (F.mul (n (x - 1) y z) K.W))
    (F.mul (n (x + 1) y z) K.E)) (F.mul (n x (y + 1) z) K.B)) (F.mul (n x y (z + 1)) K.N))

open Classical in
/-- The cells for which `P` holds have new temperatures. -/
noncomputable def Jacobi.after (K : Jacobi) (o : Nat) (P : Int → Int → Int → Prop) (val : Int → Int → Int → V) (σ : Loc → V) : Loc → V := fun l =>
  if l.s = o ∧ l.r = K.r ∧ l.k = K.k ∧ P l.x l.y l.z then val l.x l.y l.z else σ l

theorem Jacobi.after_congr (K : Jacobi) (o : Nat) {P Q : Int → Int → Int → Prop} (h : ∀ x y z, P x y z ↔ Q x y z) (val : Int → Int → Int → V)
    (σ : Loc → V) : K.after o P val σ = K.after o Q val σ := by
  have : P = Q := funext fun x => funext fun y => funext fun z => propext (h x y z)
  rw [this]

theorem Jacobi.after_old (K : Jacobi) {s o : Nat} (h : s ≠ o) (P : Int → Int → Int → Prop) (val : Int → Int → Int → V) (σ : Loc → V)
    (x y z : Int) (r k : Nat) : K.after o P val σ ⟨s, x, y, z, r, k⟩ = σ ⟨s, x, y, z, r, k⟩ := by
  unfold Jacobi.after
  rw [if_neg fun hc => h hc.1]

theorem Jacobi.after_add (K : Jacobi) (o : Nat) (P : Int → Int → Int → Prop) (val : Int → Int → Int → V) (σ : Loc → V) (x y z : Int) :
    (fun l => if l = ⟨o, x, y, z, K.r, K.k⟩ then val x y z else K.after o P val σ l) =
      K.after o (fun x' y' z' => P x' y' z' ∨ (x' = x ∧ y' = y ∧ z' = z)) val σ := by
  funext l
  obtain ⟨s, x', y', z', r, k⟩ := l
  by_cases hl : (⟨s, x', y', z', r, k⟩ : Loc) = ⟨o, x, y, z, K.r, K.k⟩
  · rw [if_pos hl]
    cases hl
    unfold Jacobi.after
    rw [if_pos ⟨rfl, rfl, rfl, .inr ⟨rfl, rfl, rfl⟩⟩]
  · rw [if_neg hl]
    unfold Jacobi.after
    by_cases h : s = o ∧ r = K.r ∧ k = K.k ∧ P x' y' z'
    · rw [if_pos h, if_pos ⟨h.1, h.2.1, h.2.2.1, .inl h.2.2.2⟩]
    · rw [if_neg h, if_neg]
      rintro ⟨rfl, rfl, rfl, h4 | ⟨rfl, rfl, rfl⟩⟩
      · exact h ⟨rfl, rfl, rfl, h4⟩
      · exact hl rfl

/-! ### Accesses -/

theorem addr_index (L : Layout V) (base : Nat) (e : Ext) (x y z : Int) (p : Pos) (m : Member V) :
    addr L base e (genIndex e x y z) 0 0 p m = addr L base e x y z p m := by
  have : genIndex e (genIndex e x y z) 0 0 = genIndex e x y z := by simp [genIndex]
  unfold addr
  rw [this]

theorem elem_index (L : Layout V) (base : Nat) (e : Ext) (x y z : Int) (p : Pos) (m : Member V) :
    elem (w := 64) L base e (genIndex e x y z) 0 0 p m = elem (w := 64) L base e x y z p m := by
  unfold elem
  rw [addr_index]

/-- The pointer, and what is seen through it. -/
theorem seen (hL : C.L.WF) (B : Bits 64 V) (base : Nat → Nat) {e : Ext} {id s : Nat} {W : World V} (hs : Has C W s e id) {h : Heap V}
    {τ : Loc → V} (hG : Good C dv W h τ) {p : Pos} {m : Member V} (hm : C.L[p.r]? = some m) (hsz : m.ty.size = 8) {x y z : Int}
    (h8 : (8 : Int) ∣ addr C.L (base id) e x y z p m) (hin : InGrid C W (at' s p x y z)) :
    ∃ b q, h.blk id = some b ∧ elem (w := 64) C.L (base id) e x y z p m = some q ∧ q * 8 = addr C.L (base id) e x y z p m ∧
      ∀ n, InGrid C W (at' s p (x + n) y z) → view B m.ty (base id) b (q + n) = B.bits (τ (at' s p (x + n) y z)) := by
  obtain ⟨a, hR, hi, hv⟩ := hG.refines hL
  obtain ⟨b, hb, -⟩ := read_ok (dv := dv) hL hR (W := ⟨h, W.g⟩) hs ((hi _).2 hin) hm
  obtain ⟨q, hq⟩ := h8
  refine ⟨b, q, hb, ?_, by rw [hq]; ring, fun n hn => ?_⟩
  · rw [elem, if_pos ⟨hsz, ⟨q, hq⟩⟩, hq]
    simp
  · obtain ⟨b', hb', hr⟩ := read_ok (dv := dv) hL hR (W := ⟨h, W.g⟩) hs ((hi _).2 hn) hm
    rw [hb] at hb'; cases hb'
    have e1 : (q + n) * (64 / 8 : Nat) - base id = off C.L e (x + n) y z p m := by
      rw [off_add, hsz]
      have : addr C.L (base id) e x y z p m = base id + off C.L e x y z p m := rfl
      rw [this] at hq
      push_cast
      omega
    unfold view
    rw [e1, hr]
    simp only
    rw [hv _ ((hi _).2 hn)]

theorem assign_good (hL : C.L.WF) {e : Ext} {id s : Nat} {W : World V} (hs : Has C W s e id) {h : Heap V} {τ : Loc → V}
    (hG : Good C dv W h τ) {p : Pos} {m : Member V} (hm : C.L[p.r]? = some m) {x y z : Int} (hin : InGrid C W (at' s p x y z)) (v : V) :
    ∃ b b', h.blk id = some b ∧ b.assign (off C.L e x y z p m) m.ty v = .ok b' ∧
      Good C dv W (h.set id b') fun l => if l = at' s p x y z then v else τ l := by
  obtain ⟨a, hR, hi, hv⟩ := hG.refines hL
  have hin' := (hi _).2 hin
  obtain ⟨b, b', a', hb, k1, k2, k3, k4, k5⟩ := write_ok (dv := dv) hL hR (W := ⟨h, W.g⟩) hs hin' hm v
  refine ⟨b, b', hb, k1, ?_, ?_⟩
  · refine hG.1.next hL hR (fun s => by simp) ?_ k2
    obtain ⟨g, m', j1, j2⟩ := hin'
    exact ⟨g, m', j1, j2⟩
  · intro l hl
    have hl' := (hi l).2 hl
    have := valA_valueIs (dv := dv) hL k3 ((k4 l).2 hl')
    rw [k5 l hl', hv l hl'] at this
    exact this

/-- The two grids contain the cells, and the pointers to the temperatures of cells with an even x-coordinate are multiples of 16. -/
structure Jacobi.Ready (K : Jacobi) (C : Cfg V) (base : Nat → Nat) (A : Pair) (W : World V) (s o : Nat) (nx ny nz : Int) : Prop where
  hs : Has C W s A.es A.ids
  ho : Has C W o A.et A.idt
  x : A.es.x = A.et.x
  y : A.es.y = A.et.y
  even : 2 ∣ A.es.x
  member : ∃ m, C.L[K.r]? = some m ∧ m.ty.size = 8
  bases : 16 ∣ base A.ids ∧ 16 ∣ base A.idt
  start : 16 ∣ A.es.x * A.es.y * A.es.z * offset C.L K.r ∧ 16 ∣ A.et.x * A.et.y * A.et.z * offset C.L K.r
  inside : ∀ g, g = s ∨ g = o → ∀ x y z, 0 ≤ x → x < nx → 0 ≤ y → y < ny → 0 ≤ z → z < nz → InGrid C W ⟨g, x, y, z, K.r, K.k⟩

theorem addr_16 {base : Nat} {e : Ext} {p : Pos} {m : Member V} {L : Layout V} (hb : 16 ∣ base) (ho : 16 ∣ e.x * e.y * e.z * offset L p.r)
    (hsz : m.ty.size = 8) (x y z : Int) : (8 : Int) ∣ addr L base e x y z p m ∧ (2 ∣ e.x → 2 ∣ x + p.X → (16 : Int) ∣ addr L base e x y z p m) := by
  obtain ⟨n, hn, hd⟩ := addr_form L base e x y z p m
  rw [hn, hsz]
  refine ⟨by omega, fun h1 h2 => ?_⟩
  have := hd 2 (by omega) h2
  omega

theorem aligned_16 {p : Int} (h : (16 : Int) ∣ p * 8) : SV.assertAligned 8 p 16 = some () := by
  have : SV.aligned 8 p 16 = true := by
    simp only [SV.aligned, beq_iff_eq]
    push_cast
    omega
  exact if_pos this

section
variable {K : Jacobi} {B : Bits 64 V} {base : Nat → Nat} {E : FEnv} {A : Pair} {W : World V} {s o : Nat} {nx ny nz : Int}
  {P : Int → Int → Int → Prop} {val : Int → Int → Int → V} {σ : Loc → V} {h : Heap V}

/-- All old temperatures are numbers. -/
def Jacobi.Numbers (K : Jacobi) (B : Bits 64 V) (s : Nat) (nx ny nz : Int) (σ : Loc → V) : Prop :=
  ∀ x y z, 0 ≤ x → x < nx → 0 ≤ y → y < ny → 0 ≤ z → z < nz → (B.bits (σ ⟨s, x, y, z, K.r, K.k⟩)).isSome = true

theorem Jacobi.num_eq (hnum : K.Numbers B s nx ny nz σ) (hso : s ≠ o) {x y z : Int} (h0 : 0 ≤ x) (h1 : x < nx) (h2 : 0 ≤ y) (h3 : y < ny)
    (h4 : 0 ≤ z) (h5 : z < nz) : B.bits (K.after o P val σ ⟨s, x, y, z, K.r, K.k⟩) = some (K.num B s σ x y z) := by
  rw [K.after_old hso]
  obtain ⟨v, hv⟩ := Option.isSome_iff_exists.1 (hnum x y z h0 h1 h2 h3 h4 h5)
  rw [Jacobi.num, hv]; rfl

theorem Jacobi.get_ok (hL : C.L.WF) (hK : K.Ready C base A W s o nx ny nz) (hso : s ≠ o) (hnum : K.Numbers B s nx ny nz σ)
    (hG : Good C dv W h (K.after o P val σ)) {x y z : Int} (X Y Z : Int) (h0 : 0 ≤ x + X) (h1 : x + X < nx) (h2 : 0 ≤ y + Y)
    (h3 : y + Y < ny) (h4 : 0 ≤ z + Z) (h5 : z + Z < nz) :
    K.get ⟨C.L, B, base, E⟩ A.ids A.es h (genIndex A.es x y z) X Y Z = some (K.num B s σ (x + X) (y + Y) (z + Z)) := by
  obtain ⟨m, m1, m2⟩ := hK.member
  obtain ⟨b, q, k1, k2, k3, k4⟩ := seen hL B base hK.hs hG (p := ⟨X, Y, Z, K.r, K.k⟩) m1 m2
    (addr_16 hK.bases.1 hK.start.1 m2 x y z).1 (hK.inside s (.inl rfl) _ _ _ h0 h1 h2 h3 h4 h5)
  have := k4 0 (by rw [Int.add_zero]; exact hK.inside s (.inl rfl) _ _ _ h0 h1 h2 h3 h4 h5)
  unfold Jacobi.get
  simp only [m1, k1, elem_index, k2, Option.bind_some]
  rw [Int.add_zero] at this
  rw [this]
  simp only [at', Int.add_zero]
  exact K.num_eq hnum hso h0 h1 h2 h3 h4 h5

theorem Jacobi.ldu_ok (hL : C.L.WF) (hK : K.Ready C base A W s o nx ny nz) (hso : s ≠ o) (hnum : K.Numbers B s nx ny nz σ)
    (hG : Good C dv W h (K.after o P val σ)) {x y z : Int} (X Y Z n : Int) (h0 : 0 ≤ x + X) (h1 : x + X < nx) (h2 : 0 ≤ y + Y)
    (h3 : y + Y < ny) (h4 : 0 ≤ z + Z) (h5 : z + Z < nz) (h6 : 0 ≤ x + X + n) (h7 : x + X + n + 1 < nx) :
    K.ld ⟨C.L, B, base, E⟩ _mm_loadu_pd A.ids A.es h (genIndex A.es x y z) X Y Z n =
      some ⟨K.num B s σ (x + X + n) (y + Y) (z + Z), K.num B s σ (x + X + n + 1) (y + Y) (z + Z)⟩ ∧
    (2 ∣ x + X + n → K.ld ⟨C.L, B, base, E⟩ _mm_load_pd A.ids A.es h (genIndex A.es x y z) X Y Z n =
      some ⟨K.num B s σ (x + X + n) (y + Y) (z + Z), K.num B s σ (x + X + n + 1) (y + Y) (z + Z)⟩) := by
  obtain ⟨m, m1, m2⟩ := hK.member
  obtain ⟨b, q, k1, k2, k3, k4⟩ := seen hL B base hK.hs hG (p := ⟨X, Y, Z, K.r, K.k⟩) m1 m2
    (addr_16 hK.bases.1 hK.start.1 m2 x y z).1 (hK.inside s (.inl rfl) _ _ _ h0 h1 h2 h3 h4 h5)
  have hv : ∀ n', 0 ≤ x + X + n' → x + X + n' < nx →
      view B m.ty (base A.ids) b (q + n') = some (K.num B s σ (x + X + n') (y + Y) (z + Z)) := by
    intro n' j1 j2
    have e : x + n' + X = x + X + n' := by omega
    have hi : InGrid C W (at' s ⟨X, Y, Z, K.r, K.k⟩ (x + n') y z) := by
      simp only [at', e]
      exact hK.inside s (.inl rfl) _ _ _ j1 j2 h2 h3 h4 h5
    rw [k4 n' hi]
    simp only [at', e]
    exact K.num_eq hnum hso j1 j2 h2 h3 h4 h5
  have hld : SV.ld2 (view B m.ty (base A.ids) b) (q + n) =
      some ⟨K.num B s σ (x + X + n) (y + Y) (z + Z), K.num B s σ (x + X + n + 1) (y + Y) (z + Z)⟩ := by
    unfold SV.ld2
    rw [hv n h6 (by omega), Int.add_assoc q, hv (n + 1) (by omega) (by omega), Int.add_assoc (x + X)]
    rfl
  constructor
  · unfold Jacobi.ld
    simp only [m1, k1, elem_index, k2, Option.bind_some]
    exact hld
  · intro h2
    unfold Jacobi.ld
    simp only [m1, k1, elem_index, k2, Option.bind_some]
    have : (16 : Int) ∣ (q + n) * 8 := by
      obtain ⟨n', hn, hd⟩ := addr_form C.L (base A.ids) A.es (x + n) y z ⟨X, Y, Z, K.r, K.k⟩ m
      have e1 := addr_add C.L (base A.ids) A.es (x + n) y z ⟨X, Y, Z, K.r, K.k⟩ m
      have e2 := addr_add C.L (base A.ids) A.es x y z ⟨X, Y, Z, K.r, K.k⟩ m
      have e3 := (addr_16 (p := ⟨X, Y, Z, K.r, K.k⟩) hK.bases.1 hK.start.1 m2 (x + n) y z).2 hK.even (by simp only; omega)
      rw [m2] at e1 e2
      omega
    have ha := aligned_16 this
    unfold SV._mm_load_pd
    rw [ha]
    exact hld

theorem Jacobi.set_ok (hL : C.L.WF) (hK : K.Ready C base A W s o nx ny nz) (hG : Good C dv W h (K.after o P val σ)) {x y z : Int}
    (h0 : 0 ≤ x) (h1 : x < nx) (h2 : 0 ≤ y) (h3 : y < ny) (h4 : 0 ≤ z) (h5 : z < nz) (v : BitVec 64) (hv : val x y z = B.val v) :
    ∃ h', K.set ⟨C.L, B, base, E⟩ A.idt A.et (genIndex A.es x y z) v h = some h' ∧
      Good C dv W h' (K.after o (fun x' y' z' => P x' y' z' ∨ (x' = x ∧ y' = y ∧ z' = z)) val σ) := by
  obtain ⟨m, m1, m2⟩ := hK.member
  have hi : InGrid C W (at' o ⟨0, 0, 0, K.r, K.k⟩ x y z) := by
    simp only [at', Int.add_zero]; exact hK.inside o (.inr rfl) _ _ _ h0 h1 h2 h3 h4 h5
  obtain ⟨b, q, k1, k2, k3, -⟩ := seen hL B base hK.ho hG (p := ⟨0, 0, 0, K.r, K.k⟩) m1 m2
    (addr_16 hK.bases.2 hK.start.2 m2 x y z).1 hi
  obtain ⟨b1, b', j1, j2, j3⟩ := assign_good hL hK.ho hG (p := ⟨0, 0, 0, K.r, K.k⟩) m1 hi (B.val v)
  rw [k1] at j1; cases j1
  refine ⟨h.set A.idt b', ?_, ?_⟩
  · unfold Jacobi.set
    have e1 : q * (64 / 8 : Nat) - base A.idt = off C.L A.et x y z ⟨0, 0, 0, K.r, K.k⟩ m := by
      have : addr C.L (base A.idt) A.et x y z ⟨0, 0, 0, K.r, K.k⟩ m = base A.idt + off C.L A.et x y z ⟨0, 0, 0, K.r, K.k⟩ m := rfl
      rw [this] at k3
      push_cast; omega
    simp only [m1, k1, Line.genIndex_same hK.x hK.y, elem_index, k2, Option.bind_some, put, e1, j2]
    rfl
  · rw [← K.after_add, hv]
    simp only [at', Int.add_zero] at j3
    exact j3

theorem Jacobi.stream_ok (hL : C.L.WF) (hK : K.Ready C base A W s o nx ny nz) (hG : Good C dv W h (K.after o P val σ)) {x y z : Int} (n : Int)
    (h0 : 0 ≤ x) (h1 : x < nx) (h2 : 0 ≤ y) (h3 : y < ny) (h4 : 0 ≤ z) (h5 : z < nz) (h6 : 0 ≤ x + n) (h7 : x + n + 1 < nx)
    (h8 : 2 ∣ x + n) (v : M128d) (hv0 : val (x + n) y z = B.val v.x0) (hv1 : val (x + n + 1) y z = B.val v.x1) :
    ∃ h', K.stream ⟨C.L, B, base, E⟩ A.idt A.et (genIndex A.es x y z) n v h = some h' ∧
      Good C dv W h' (K.after o (fun x' y' z' => (P x' y' z' ∨ (x' = x + n ∧ y' = y ∧ z' = z)) ∨ (x' = x + n + 1 ∧ y' = y ∧ z' = z)) val σ) := by
  obtain ⟨m, m1, m2⟩ := hK.member
  have hi : ∀ x, 0 ≤ x → x < nx → InGrid C W (at' o ⟨0, 0, 0, K.r, K.k⟩ x y z) := fun x j1 j2 => by
    simp only [at', Int.add_zero]; exact hK.inside o (.inr rfl) _ _ _ j1 j2 h2 h3 h4 h5
  obtain ⟨b, q, k1, k2, k3, -⟩ := seen hL B base hK.ho hG (p := ⟨0, 0, 0, K.r, K.k⟩) m1 m2
    (addr_16 hK.bases.2 hK.start.2 m2 x y z).1 (hi x h0 h1)
  obtain ⟨b1, b', j1, j2, j3⟩ := assign_good hL hK.ho hG (p := ⟨0, 0, 0, K.r, K.k⟩) m1 (hi (x + n) h6 (by omega)) (B.val v.x0)
  rw [k1] at j1; cases j1
  simp only [at', Int.add_zero] at j3
  rw [← hv0, K.after_add] at j3
  obtain ⟨b2, b'', i1, i2, i3⟩ := assign_good hL hK.ho j3 (p := ⟨0, 0, 0, K.r, K.k⟩) m1 (hi (x + n + 1) (by omega) (by omega)) (B.val v.x1)
  have e0 : b2 = b' := by
    simp only [Heap.set, if_true, Option.some.injEq] at i1; exact i1.symm
  subst e0
  rw [set_set] at i3
  simp only [at', Int.add_zero] at i3
  rw [← hv1, K.after_add] at i3
  refine ⟨h.set A.idt b'', ?_, i3⟩
  have hq : addr C.L (base A.idt) A.et x y z ⟨0, 0, 0, K.r, K.k⟩ m = base A.idt + off C.L A.et x y z ⟨0, 0, 0, K.r, K.k⟩ m := rfl
  have o1 := off_add C.L A.et x y z ⟨0, 0, 0, K.r, K.k⟩ m n
  have o2 := off_add C.L A.et x y z ⟨0, 0, 0, K.r, K.k⟩ m (n + 1)
  rw [m2] at o1 o2
  rw [← Int.add_assoc] at o2
  have e1 : (q + n) * (64 / 8 : Nat) - base A.idt = off C.L A.et (x + n) y z ⟨0, 0, 0, K.r, K.k⟩ m := by
    rw [o1]; rw [hq] at k3; push_cast; omega
  have e2 : (q + n + 1) * (64 / 8 : Nat) - base A.idt = off C.L A.et (x + n + 1) y z ⟨0, 0, 0, K.r, K.k⟩ m := by
    rw [o2]; rw [hq] at k3; push_cast; omega
  have ha : SV.assertAligned 8 (q + n) 16 = some () := by
    have e3 := (addr_16 (p := ⟨0, 0, 0, K.r, K.k⟩) hK.bases.2 hK.start.2 m2 (x + n) y z).2 (by rw [← hK.x]; exact hK.even) (by simp only; omega)
    have e4 : addr C.L (base A.idt) A.et (x + n) y z ⟨0, 0, 0, K.r, K.k⟩ m = base A.idt + off C.L A.et (x + n) y z ⟨0, 0, 0, K.r, K.k⟩ m := rfl
    refine aligned_16 ?_
    push_cast at e1
    omega
  have hw : _mm_stream_pd (q + n) v = some [(q + n, v.x0), (q + n + 1, v.x1)] := by
    unfold SV._mm_stream_pd
    rw [ha]; rfl
  unfold Jacobi.stream
  simp only [m1, k1, Line.genIndex_same hK.x hK.y, elem_index, k2, Option.bind_some, hw, put, e1, e2, j2, i2, Except.bind]

/-! ### Cells and blocks -/

theorem Jacobi.cell_ok (hL : C.L.WF) (hK : K.Ready C base A W s o nx ny nz) (hso : s ≠ o) (hnum : K.Numbers B s nx ny nz σ)
    (hG : Good C dv W h (K.after o P val σ)) {x y z : Int} (h0 : 1 ≤ x) (h1 : x + 1 < nx) (h2 : 1 ≤ y) (h3 : y + 1 < ny)
    (h4 : 1 ≤ z) (h5 : z + 1 < nz) (hv : val x y z = K.sum7 B E.f64 s σ x y z) :
    ∃ h', K.cell ⟨C.L, B, base, E⟩ A (genIndex A.es x y z) h = some h' ∧
      Good C dv W h' (K.after o (fun x' y' z' => P x' y' z' ∨ (x' = x ∧ y' = y ∧ z' = z)) val σ) := by
  have hg := fun X Y Z a b c d e f => K.get_ok (E := E) hL hK hso hnum hG (x := x) (y := y) (z := z) X Y Z a b c d e f
  unfold Jacobi.cell
  rw [hg 0 0 (-1) (by omega) (by omega) (by omega) (by omega) (by omega) (by omega),
    hg 0 (-1) 0 (by omega) (by omega) (by omega) (by omega) (by omega) (by omega),
    hg (-1) 0 0 (by omega) (by omega) (by omega) (by omega) (by omega) (by omega),
    hg 0 0 0 (by omega) (by omega) (by omega) (by omega) (by omega) (by omega),
    hg 1 0 0 (by omega) (by omega) (by omega) (by omega) (by omega) (by omega),
    hg 0 1 0 (by omega) (by omega) (by omega) (by omega) (by omega) (by omega),
    hg 0 0 1 (by omega) (by omega) (by omega) (by omega) (by omega) (by omega)]
  simp only [Option.bind_eq_bind, Option.bind_some, Int.add_zero]
  exact K.set_ok hL hK hG (by omega) (by omega) (by omega) (by omega) (by omega) (by omega) _ hv

theorem Jacobi.block_ok (hL : C.L.WF) (hK : K.Ready C base A W s o nx ny nz) (hso : s ≠ o) (hnum : K.Numbers B s nx ny nz σ)
    (hG : Good C dv W h (K.after o P val σ)) {x y z : Int} (h0 : 1 ≤ x) (h1 : x + 8 < nx) (h2 : 1 ≤ y) (h3 : y + 1 < ny)
    (h4 : 1 ≤ z) (h5 : z + 1 < nz) (h6 : 2 ∣ x) (hv : ∀ n : Int, 0 ≤ n → n < 8 → val (x + n) y z = K.sum6 B E.f64 s σ (x + n) y z) :
    ∃ h', K.block ⟨C.L, B, base, E⟩ A (genIndex A.es x y z) h = some h' ∧
      Good C dv W h' (K.after o (fun x' y' z' => P x' y' z' ∨ (x ≤ x' ∧ x' < x + 8 ∧ y' = y ∧ z' = z)) val σ) := by
  have hld := fun X Y Z n a b c d e f g i => K.ldu_ok (E := E) hL hK hso hnum hG (x := x) (y := y) (z := z) X Y Z n a b c d e f g i
  have hS : ∀ n : Int, 0 ≤ n → n < 7 → 2 ∣ n → K.ld ⟨C.L, B, base, E⟩ _mm_load_pd A.ids A.es h (genIndex A.es x y z) 0 0 (-1) n =
      some ⟨K.num B s σ (x + n) y (z - 1), K.num B s σ (x + n + 1) y (z - 1)⟩ := fun n j1 j2 j3 => by
    have := (hld 0 0 (-1) n (by omega) (by omega) (by omega) (by omega) (by omega) (by omega) (by omega) (by omega)).2 (by omega)
    simp only [Int.add_zero] at this; exact this
  have hT : ∀ n : Int, 0 ≤ n → n < 7 → 2 ∣ n → K.ld ⟨C.L, B, base, E⟩ _mm_load_pd A.ids A.es h (genIndex A.es x y z) 0 (-1) 0 n =
      some ⟨K.num B s σ (x + n) (y - 1) z, K.num B s σ (x + n + 1) (y - 1) z⟩ := fun n j1 j2 j3 => by
    have := (hld 0 (-1) 0 n (by omega) (by omega) (by omega) (by omega) (by omega) (by omega) (by omega) (by omega)).2 (by omega)
    simp only [Int.add_zero] at this; exact this
  have hB : ∀ n : Int, 0 ≤ n → n < 7 → 2 ∣ n → K.ld ⟨C.L, B, base, E⟩ _mm_load_pd A.ids A.es h (genIndex A.es x y z) 0 1 0 n =
      some ⟨K.num B s σ (x + n) (y + 1) z, K.num B s σ (x + n + 1) (y + 1) z⟩ := fun n j1 j2 j3 => by
    have := (hld 0 1 0 n (by omega) (by omega) (by omega) (by omega) (by omega) (by omega) (by omega) (by omega)).2 (by omega)
    simp only [Int.add_zero] at this; exact this
  have hN : ∀ n : Int, 0 ≤ n → n < 7 → 2 ∣ n → K.ld ⟨C.L, B, base, E⟩ _mm_load_pd A.ids A.es h (genIndex A.es x y z) 0 0 1 n =
      some ⟨K.num B s σ (x + n) y (z + 1), K.num B s σ (x + n + 1) y (z + 1)⟩ := fun n j1 j2 j3 => by
    have := (hld 0 0 1 n (by omega) (by omega) (by omega) (by omega) (by omega) (by omega) (by omega) (by omega)).2 (by omega)
    simp only [Int.add_zero] at this; exact this
  have hW : ∀ n : Int, -1 ≤ n → n ≤ 7 → K.ld ⟨C.L, B, base, E⟩ _mm_loadu_pd A.ids A.es h (genIndex A.es x y z) 0 0 0 n =
      some ⟨K.num B s σ (x + n) y z, K.num B s σ (x + n + 1) y z⟩ := fun n j1 j2 => by
    have := (hld 0 0 0 n (by omega) (by omega) (by omega) (by omega) (by omega) (by omega) (by omega) (by omega)).1
    simp only [Int.add_zero] at this; exact this
  unfold Jacobi.block
  simp only [hS 0 (by omega) (by omega) (by omega), hS 2 (by omega) (by omega) (by omega), hS 4 (by omega) (by omega) (by omega),
    hS 6 (by omega) (by omega) (by omega), hT 0 (by omega) (by omega) (by omega), hT 2 (by omega) (by omega) (by omega),
    hT 4 (by omega) (by omega) (by omega), hT 6 (by omega) (by omega) (by omega), hB 0 (by omega) (by omega) (by omega),
    hB 2 (by omega) (by omega) (by omega), hB 4 (by omega) (by omega) (by omega), hB 6 (by omega) (by omega) (by omega),
    hN 0 (by omega) (by omega) (by omega), hN 2 (by omega) (by omega) (by omega), hN 4 (by omega) (by omega) (by omega),
    hN 6 (by omega) (by omega) (by omega), hW (-1) (by omega) (by omega), hW 1 (by omega) (by omega), hW 3 (by omega) (by omega),
    hW 5 (by omega) (by omega), hW 7 (by omega) (by omega), Option.bind_eq_bind, Option.bind_some]
  have ar : x + 0 = x ∧ x + -1 = x - 1 ∧ x - 1 + 1 = x ∧ x + 1 + 1 = x + 2 ∧ x + 2 + 1 = x + 3 ∧ x + 3 + 1 = x + 4 ∧ x + 4 + 1 = x + 5 ∧ x + 5 + 1 = x + 6 ∧
      x + 6 + 1 = x + 7 ∧ x + 7 + 1 = x + 8 ∧ x + 1 - 1 = x ∧ x + 2 - 1 = x + 1 ∧ x + 3 - 1 = x + 2 ∧ x + 4 - 1 = x + 3 ∧ x + 5 - 1 = x + 4 ∧
      x + 6 - 1 = x + 5 ∧ x + 7 - 1 = x + 6 := by omega
  obtain ⟨a0, a1, a2, a3, a4, a5, a6, a7, a8, a9, b1, b2, b3, b4, b5, b6, b7⟩ := ar
  have hval := fun n j1 j2 => (hv n j1 j2).trans (show _ = B.val _ from rfl)
  obtain ⟨h', k1, g1⟩ := K.stream_ok (E := E) hL hK hG (x := x) (y := y) (z := z) 0 (by omega) (by omega) (by omega) (by omega) (by omega) (by omega)
    (by omega) (by omega) (by omega) ⟨_, _⟩ (hval 0 (by omega) (by omega)) (by rw [a0]; exact hval 1 (by omega) (by omega))
  obtain ⟨h'', k2, g2⟩ := K.stream_ok (E := E) hL hK g1 (x := x) (y := y) (z := z) 2 (by omega) (by omega) (by omega) (by omega) (by omega) (by omega)
    (by omega) (by omega) (by omega) ⟨_, _⟩ (hval 2 (by omega) (by omega)) (by rw [a4]; exact hval 3 (by omega) (by omega))
  obtain ⟨h3', k3, g3⟩ := K.stream_ok (E := E) hL hK g2 (x := x) (y := y) (z := z) 4 (by omega) (by omega) (by omega) (by omega) (by omega) (by omega)
    (by omega) (by omega) (by omega) ⟨_, _⟩ (hval 4 (by omega) (by omega)) (by rw [a6]; exact hval 5 (by omega) (by omega))
  obtain ⟨h4', k4, g4⟩ := K.stream_ok (E := E) hL hK g3 (x := x) (y := y) (z := z) 6 (by omega) (by omega) (by omega) (by omega) (by omega) (by omega)
    (by omega) (by omega) (by omega) ⟨_, _⟩ (hval 6 (by omega) (by omega)) (by rw [a8]; exact hval 7 (by omega) (by omega))
  refine ⟨h4', ?_, ?_⟩
  · simp only [a0, a1, a2, a3, a4, a5, a6, a7, a8, a9, b1, b2, b3, b4, b5, b6, b7] at k1 k2 k3 k4 ⊢
    simp only [_mm_mul_pd, _mm_add_pd, _mm_set1_pd, SV.R2.map2, SV.dup2]
    rw [k1, Option.bind_some, k2, Option.bind_some, k3, Option.bind_some, k4]
  · rw [K.after_congr o (Q := _) ?_ val σ] at g4
    · exact g4
    · intro x' y' z'
      by_cases hP : P x' y' z'
      · simp [hP]
      · simp only [hP, false_or]
        omega

end

/-! ### Rows -/

theorem loop_ok {f : Int → Heap V → Option (Heap V)} {step stop : Int} (hstep : 1 ≤ step) {I : Int → Heap V → Prop}
    (hf : ∀ i h, I i h → i < stop → ∃ h', f i h = some h' ∧ I (i + step) h') :
    ∀ (n : Nat) (i : Int) (h : Heap V), stop - i ≤ n → I i h → ∃ i' h', loop f step stop n i h = some (i', h') ∧ I i' h' ∧ stop ≤ i' := by
  intro n
  induction n with
  | zero =>
    intro i h hn hI
    have : ¬ i < stop := by omega
    exact ⟨i, h, by rw [loop, if_neg this], hI, by omega⟩
  | succ n ih =>
    intro i h hn hI
    by_cases hi : i < stop
    · obtain ⟨h', k1, k2⟩ := hf i h hI hi
      obtain ⟨i', h'', j1, j2⟩ := ih (i + step) h' (by omega) k2
      exact ⟨i', h'', by rw [loop, if_pos hi, k1, Option.bind_some, j1], j2⟩
    · exact ⟨i, h, by rw [loop, if_neg hi], hI, by omega⟩

/-- Number of cells in the blocks of a row. -/
def blocked (nx : Int) : Int := 8 * ((nx - 3) / 8)

/-- The cells of a row which the functor updates. -/
def Updated (nx x : Int) : Prop := 1 ≤ x ∧ x < nx - 2 ∨ 1 ≤ x ∧ x < 2 + blocked nx

/-- The cells of a row which are in one of the blocks. -/
def Blocked (nx x : Int) : Prop := 2 ≤ x ∧ x < 2 + blocked nx

instance (nx x : Int) : Decidable (Updated nx x) := by unfold Updated; infer_instance
instance (nx x : Int) : Decidable (Blocked nx x) := by unfold Blocked; infer_instance

/-- The new temperature of a cell. -/
def Jacobi.value (K : Jacobi) (B : Bits 64 V) (F : FOps 64) (s : Nat) (nx : Int) (σ : Loc → V) (x y z : Int) : V :=
  if Blocked nx x then K.sum6 B F s σ x y z else K.sum7 B F s σ x y z

theorem genIndex_add (e : Ext) (x y z n : Int) : genIndex e x y z + n = genIndex e (x + n) y z := by unfold genIndex; ring

theorem genIndex_diff (e : Ext) (x x' y z : Int) : genIndex e x' y z = genIndex e x y z + (x' - x) := by unfold genIndex; ring

section
variable {K : Jacobi} {B : Bits 64 V} {base : Nat → Nat} {E : FEnv} {A : Pair} {W : World V} {s o : Nat} {nx ny nz : Int}
  {P : Int → Int → Int → Prop} {σ : Loc → V} {h : Heap V}

theorem Jacobi.row_ok (hL : C.L.WF) (hK : K.Ready C base A W s o nx ny nz) (hso : s ≠ o) (hnum : K.Numbers B s nx ny nz σ) (hnx : 3 ≤ nx)
    (hG : Good C dv W h (K.after o P (K.value B E.f64 s nx σ) σ)) {y z : Int} (h2 : 1 ≤ y) (h3 : y + 1 < ny)
    (h4 : 1 ≤ z) (h5 : z + 1 < nz) :
    ∃ h', K.row ⟨C.L, B, base, E⟩ A nx y z h = some h' ∧
      Good C dv W h' (K.after o (fun x' y' z' => P x' y' z' ∨ ((x' = 1 ∨ Updated nx x') ∧ y' = y ∧ z' = z)) (K.value B E.f64 s nx σ) σ) := by
  have hend : genIndex A.es (nx - 1) y z = genIndex A.es 1 y z + (nx - 2) := by rw [genIndex_diff A.es 1 (nx - 1)]; omega
  obtain ⟨h1, k1, g1⟩ := K.cell_ok (E := E) hL hK hso hnum hG (x := 1) (y := y) (z := z) (by omega) (by omega) h2 h3 h4 h5
    (by rw [Jacobi.value, if_neg (by simp [Blocked])])
  obtain ⟨i1, h1', k2, ⟨n1, n2, n3, g2⟩, k3⟩ := loop_ok (f := K.block ⟨C.L, B, base, E⟩ A) (step := 8)
    (stop := genIndex A.es (nx - 1) y z - 7) (by omega)
    (I := fun i h => ∃ n : Nat, i = genIndex A.es (2 + 8 * n) y z ∧ 8 * (n : Int) ≤ blocked nx ∧ Good C dv W h (K.after o (fun x' y' z' =>
      P x' y' z' ∨ (1 ≤ x' ∧ x' < 2 + 8 * n ∧ y' = y ∧ z' = z)) (K.value B E.f64 s nx σ) σ)) (by
      rintro i h ⟨n, rfl, n2, g⟩ hi
      rw [hend, genIndex_diff A.es 1 (2 + 8 * n)] at hi
      unfold blocked at n2
      obtain ⟨h', k1, g'⟩ := K.block_ok (E := E) hL hK hso hnum g (x := 2 + 8 * n) (y := y) (z := z) (by omega) (by omega) h2 h3 h4 h5
        (by omega) (fun m m0 m1 => by rw [Jacobi.value, if_pos (by unfold Blocked blocked; omega)])
      refine ⟨h', k1, n + 1, ?_, ?_, ?_⟩
      · rw [genIndex_add]; congr 1
      · unfold blocked; push_cast; omega
      · rw [K.after_congr o (Q := _) ?_] at g'
        · exact g'
        · intro x' y' z'
          by_cases hP : P x' y' z'
          · simp [hP]
          · simp only [hP, false_or]
            push_cast
            omega)
    nx.toNat (genIndex A.es 1 y z + 1) h1 (by omega) ⟨0, by rw [genIndex_add]; rfl, by unfold blocked; omega, by
      rw [K.after_congr o (Q := _) ?_] at g1
      · exact g1
      · intro x' y' z'
        by_cases hP : P x' y' z'
        · simp [hP]
        · simp only [hP, false_or]
          omega⟩
  rw [n2, hend, genIndex_diff A.es 1 (2 + 8 * n1)] at k3
  have hn1 : 8 * (n1 : Int) = blocked nx := by unfold blocked at n3 ⊢; omega
  rw [hn1] at n2 g2
  obtain ⟨i2, h2', k4, ⟨m, m1, m2, g3⟩, k5⟩ := loop_ok (f := K.cell ⟨C.L, B, base, E⟩ A) (step := 1)
    (stop := genIndex A.es (nx - 1) y z - 1) (by omega)
    (I := fun i h => ∃ x : Int, i = genIndex A.es x y z ∧ (2 + blocked nx ≤ x ∧ (x ≤ nx - 2 ∨ x = 2 + blocked nx)) ∧
      Good C dv W h (K.after o (fun x' y' z' => P x' y' z' ∨ (1 ≤ x' ∧ x' < x ∧ y' = y ∧ z' = z)) (K.value B E.f64 s nx σ) σ)) (by
      rintro i h ⟨x, rfl, x2, g⟩ hi
      rw [hend, genIndex_diff A.es 1 x] at hi
      have hb : 0 ≤ blocked nx := by unfold blocked; omega
      obtain ⟨h', k1, g'⟩ := K.cell_ok (E := E) hL hK hso hnum g (x := x) (y := y) (z := z) (by omega) (by omega) h2 h3 h4 h5
        (by rw [Jacobi.value, if_neg (by unfold Blocked; omega)])
      refine ⟨h', k1, x + 1, ?_, ⟨by omega, by omega⟩, ?_⟩
      · rw [genIndex_add]
      · rw [K.after_congr o (Q := _) ?_] at g'
        · exact g'
        · intro x' y' z'
          by_cases hP : P x' y' z'
          · simp [hP]
          · simp only [hP, false_or]
            omega)
    nx.toNat i1 h1' (by rw [n2, hend, genIndex_diff A.es 1 (2 + blocked nx)]; unfold blocked; omega) ⟨2 + blocked nx, n2, by omega, g2⟩
  refine ⟨h2', ?_, ?_⟩
  · unfold Jacobi.row
    simp only [k1, k2, k4, Option.bind_eq_bind, Option.bind_some]
    rfl
  · rw [K.after_congr o (Q := _) ?_] at g3
    · exact g3
    · intro x' y' z'
      rw [m1, hend, genIndex_diff A.es 1 m] at k5
      have hb : 0 ≤ blocked nx := by unfold blocked; omega
      by_cases hP : P x' y' z'
      · simp [hP]
      · simp only [hP, false_or, Updated]
        omega

theorem Jacobi.sweep_ok (hL : C.L.WF) (hK : K.Ready C base A W s o nx ny nz) (hso : s ≠ o) (hnum : K.Numbers B s nx ny nz σ) (hnx : 3 ≤ nx)
    (rs : List (Int × Int)) (hrs : ∀ r ∈ rs, 1 ≤ r.1 ∧ r.1 + 1 < ny ∧ 1 ≤ r.2 ∧ r.2 + 1 < nz)
    (hG : Good C dv W h (K.after o P (K.value B E.f64 s nx σ) σ)) :
    ∃ h', K.sweep ⟨C.L, B, base, E⟩ A nx rs h = some h' ∧
      Good C dv W h' (K.after o (fun x y z => P x y z ∨ ((x = 1 ∨ Updated nx x) ∧ (y, z) ∈ rs)) (K.value B E.f64 s nx σ) σ) := by
  induction rs generalizing P h with
  | nil => exact ⟨h, rfl, by simpa using hG⟩
  | cons r rs ih =>
    obtain ⟨y, z⟩ := r
    obtain ⟨r1, r2, r3, r4⟩ := hrs _ List.mem_cons_self
    obtain ⟨h', k1, g1⟩ := K.row_ok (E := E) hL hK hso hnum hnx hG r1 r2 r3 r4
    obtain ⟨h'', k2, g2⟩ := ih (fun r hr => hrs r (List.mem_cons_of_mem _ hr)) g1
    refine ⟨h'', by rw [Jacobi.sweep, k1, Option.bind_some, k2], ?_⟩
    rw [K.after_congr o (Q := _) ?_] at g2
    · exact g2
    · intro x' y' z'
      simp only [List.mem_cons, Prod.mk.injEq]
      tauto

end

/-- What the functor leaves: cell 1 of each inner row, the cells in blocks, and those from there to the third from the end are updated. -/
def Jacobi.result (K : Jacobi) (B : Bits 64 V) (F : FOps 64) (s o : Nat) (nx ny nz : Int) (σ : Loc → V) : Loc → V := fun l =>
  if l.s = o ∧ l.r = K.r ∧ l.k = K.k ∧ (l.x = 1 ∨ Updated nx l.x) ∧ 1 ≤ l.y ∧ l.y < ny - 1 ∧ 1 ≤ l.z ∧ l.z < nz - 1
  then K.value B F s nx σ l.x l.y l.z else σ l

/-! ### The functor -/

/-- Requirements for grids with dimensions `d`: the member is a `double`, buffers are aligned, the arrays of the member and their rows are
    aligned (always so with default sizes), and the functor has been given at most the dimensions of the grids. -/
structure Jacobi.Fit (K : Jacobi) (C : Cfg V) (base : Nat → Nat) (d : Ext) (nx ny nz : Int) : Prop where
  sizes : C.tr = .dflt ∨ ∀ e, selectSizes C.tr d = .ok e → 2 ∣ e.x ∧ 16 ∣ e.x * e.y * e.z * offset C.L K.r
  member : ∃ m, C.L[K.r]? = some m ∧ m.ty.size = 8 ∧ K.k < m.elems
  base : ∀ id, 16 ∣ base id
  lo : 3 ≤ nx
  x : nx ≤ d.x
  y : ny ≤ d.y
  z : nz ≤ d.z

theorem Jacobi.Fit.ready {K : Jacobi} {base : Nat → Nat} {d e : Ext} {nx ny nz : Int} (hF : K.Fit C base d nx ny nz)
    (he : selectSizes C.tr d = .ok e) {W : World V} {s o ids idt : Nat} (hs : Has C W s e ids) (ho : Has C W o e idt)
    (hds : DimsAre C W s d) (hdo : DimsAre C W o d) : K.Ready C base ⟨e, e, ids, idt⟩ W s o nx ny nz := by
  obtain ⟨m, m1, m2, m3⟩ := hF.member
  obtain ⟨h2, hst⟩ : 2 ∣ e.x ∧ 16 ∣ e.x * e.y * e.z * offset C.L K.r := by
    rcases hF.sizes with htr | h
    · rw [htr] at he
      exact ⟨Nat.dvd_trans (by decide) (Props.C07_multiples d e he).1,
        Nat.dvd_trans (by decide) (Nat.dvd_trans (dflt_prod he).1 (Nat.dvd_mul_right _ _))⟩
    · exact h e he
  refine ⟨hs, ho, rfl, rfl, h2, ⟨m, m1, m2⟩, ⟨hF.base _, hF.base _⟩, ⟨hst, hst⟩, ?_⟩
  intro g hg x y z h0 h1 h2 h3 h4 h5
  have hx := hF.x
  have hy := hF.y
  have hz := hF.z
  refine ⟨d, m, ?_, m1, m3, h0, by simp only; omega, h2, by simp only; omega, h4, by simp only; omega⟩
  rcases hg with rfl | rfl
  · exact hds
  · exact hdo

theorem Jacobi.silver_ok (hL : C.L.WF) (B : Bits 64 V) (base : Nat → Nat) (E : FEnv) {K : Jacobi} {d e : Ext} {nx ny nz : Int}
    (hF : K.Fit C base d nx ny nz) (he : selectSizes C.tr d = .ok e) {s o : Nat} (hso : s ≠ o) {W : World V} (hV : Valid C dv W)
    (hds : DimsAre C W s d) (hdo : DimsAre C W o d) (hd : d ≠ ⟨0, 0, 0⟩) {σ : Loc → V} (hσ : ∀ l, InGrid C W l → ValueIs C W l (σ l))
    (hnum : K.Numbers B s nx ny nz σ) :
    Yields C dv W (K.result B E.f64 s o nx ny nz σ) (K.silver C B base E nx ny nz W s o) := by
  obtain ⟨a, hR⟩ := hV.refines hL
  obtain ⟨ids, gs, i1, i2, i3, i4⟩ := has_of_dims hR hds hd he
  obtain ⟨idt, gt, j1, j2, j3, j4⟩ := has_of_dims hR hdo hd he
  have hK := hF.ready he i4 j4 hds hdo
  have hG : Good C dv W W.h (K.after o (fun _ _ _ => False) (K.value B E.f64 s nx σ) σ) := by
    have : K.after o (fun _ _ _ => False) (K.value B E.f64 s nx σ) σ = σ := by
      funext l; unfold Jacobi.after; rw [if_neg]; simp
    rw [this]
    exact ⟨hV, hσ⟩
  obtain ⟨h', k1, g⟩ := K.sweep_ok (E := E) hL hK hso hnum hF.lo (Jacobi.box ny nz).rows (by
    rintro ⟨y, z⟩ hr
    have := Box.mem_rows.1 hr
    simp only [Jacobi.box] at this ⊢
    omega) hG
  refine ⟨⟨h', W.g⟩, ?_, g.1, dimsAre_same rfl, fun l hl => ?_⟩
  · simp only [Jacobi.silver, World.withG, i1, j1, Line.dual_eq he he (.inr rfl) i2 j2, i3, j3, Option.getD_some, k1, World.ofH]
  · have := g.2 l hl
    have e1 : K.after o (fun x y z => False ∨ ((x = 1 ∨ Updated nx x) ∧ (y, z) ∈ (Jacobi.box ny nz).rows)) (K.value B E.f64 s nx σ) σ l =
        K.result B E.f64 s o nx ny nz σ l := by
      unfold Jacobi.after Jacobi.result
      simp only [Box.mem_rows, Jacobi.box, false_or]
    rw [e1] at this
    exact this

/-- All temperatures of both grids are numbers. -/
def Jacobi.Both (K : Jacobi) (B : Bits 64 V) (s o : Nat) (nx ny nz : Int) (σ : Loc → V) : Prop :=
  K.Numbers B s nx ny nz σ ∧ K.Numbers B o nx ny nz σ

theorem Jacobi.Both.next {K : Jacobi} {B : Bits 64 V} {F : FOps 64} {s o : Nat} {nx ny nz : Int} {σ : Loc → V} (hso : s ≠ o)
    (h : K.Both B s o nx ny nz σ) : K.Both B s o nx ny nz (exchange s o (K.result B F s o nx ny nz σ)) := by
  have hos : ¬ o = s := Ne.symm hso
  constructor
  · intro x y z h0 h1 h2 h3 h4 h5
    simp only [exchange, if_true, Jacobi.result, true_and]
    split
    · unfold Jacobi.value Jacobi.sum6 Jacobi.sum7
      split <;> simp only [B.bits_val] <;> rfl
    · exact h.2 x y z h0 h1 h2 h3 h4 h5
  · intro x y z h0 h1 h2 h3 h4 h5
    simp only [exchange, hos, if_true, if_false, Jacobi.result, hso, false_and]
    exact h.1 x y z h0 h1 h2 h3 h4 h5

/-! ### C84 -/

/-- C84: what the functor does. Cell 1 of a row is updated by scalar code; then come blocks of 8 cells; the remaining cells except for the last
    inner one are updated by scalar code. Nothing else changes, and there is no access outside of the grids or through a misaligned pointer.
    Missing: blocks use another formula than the scalar code (`C84_false_center`), and unless the number of cells in a row is 3 modulo 8 the
    last inner cell is not updated (`C84_false_last`). -/
theorem C84_partial (hL : C.L.WF) (B : Bits 64 V) (base : Nat → Nat) (E : FEnv) (K : Jacobi) (d e : Ext) (nx ny nz : Int)
    (hF : K.Fit C base d nx ny nz) (he : selectSizes C.tr d = .ok e) (s o : Nat) (hso : s ≠ o) (W : World V) (hV : Valid C dv W)
    (hds : DimsAre C W s d) (hdo : DimsAre C W o d) (hd : d ≠ ⟨0, 0, 0⟩) (σ : Loc → V) (hσ : ∀ l, InGrid C W l → ValueIs C W l (σ l))
    (hnum : K.Numbers B s nx ny nz σ) :
    ∃ σ', Yields C dv W σ' (K.silver C B base E nx ny nz W s o) ∧
      (∀ x y z, 1 ≤ y → y < ny - 1 → 1 ≤ z → z < nz - 1 → (x = 1 ∨ 2 + 8 * ((nx - 3) / 8) ≤ x ∧ x < nx - 2) →
        σ' ⟨o, x, y, z, K.r, K.k⟩ = K.sum7 B E.f64 s σ x y z) ∧
      (∀ x y z, 1 ≤ y → y < ny - 1 → 1 ≤ z → z < nz - 1 → 2 ≤ x → x < 2 + 8 * ((nx - 3) / 8) →
        σ' ⟨o, x, y, z, K.r, K.k⟩ = K.sum6 B E.f64 s σ x y z) ∧
      ∀ l : Loc, ¬ (l.s = o ∧ l.r = K.r ∧ l.k = K.k ∧ 1 ≤ l.y ∧ l.y < ny - 1 ∧ 1 ≤ l.z ∧ l.z < nz - 1 ∧ 1 ≤ l.x ∧
        (l.x = 1 ∨ l.x < nx - 2 ∨ l.x < 2 + 8 * ((nx - 3) / 8))) → σ' l = σ l := by
  have hlo := hF.lo
  refine ⟨_, K.silver_ok hL B base E hF he hso hV hds hdo hd hσ hnum, ?_, ?_, ?_⟩
  · intro x y z h1 h2 h3 h4 hx
    unfold Jacobi.result
    rw [if_pos ⟨rfl, rfl, rfl, by unfold Updated; simp only; omega, h1, h2, h3, h4⟩, Jacobi.value, if_neg]
    unfold Blocked blocked
    simp only
    omega
  · intro x y z h1 h2 h3 h4 hx hx'
    unfold Jacobi.result
    rw [if_pos ⟨rfl, rfl, rfl, by unfold Updated blocked; simp only; omega, h1, h2, h3, h4⟩, Jacobi.value, if_pos]
    unfold Blocked blocked
    simp only
    omega
  · intro l hl
    unfold Jacobi.result
    rw [if_neg]
    rintro ⟨q1, q2, q3, q4, q5, q6, q7, q8⟩
    unfold Updated blocked at q4
    exact hl ⟨q1, q2, q3, q5, q6, q7, q8, by omega, by omega⟩

/-- C84 for any number of time steps: the functor's effect, followed by the exchange of the grids, over and over again. -/
theorem C84_steps_partial (hL : C.L.WF) (B : Bits 64 V) (base : Nat → Nat) (E : FEnv) (K : Jacobi) (d e : Ext) (nx ny nz : Int)
    (hF : K.Fit C base d nx ny nz) (he : selectSizes C.tr d = .ok e) (s o : Nat) (hso : s ≠ o) (hd : d ≠ ⟨0, 0, 0⟩) (n : Nat) :
    ∀ (W : World V) (_ : Valid C dv W) (_ : DimsAre C W s d) (_ : DimsAre C W o d) (σ : Loc → V)
      (_ : ∀ l, InGrid C W l → ValueIs C W l (σ l)) (_ : K.Both B s o nx ny nz σ),
      Yields C dv W ((fun σ => exchange s o (K.result B E.f64 s o nx ny nz σ))^[n] σ) (K.steps C B base E nx ny nz s o n W) := by
  induction n with
  | zero => intro W hV hs ho σ hσ _; exact ⟨W, rfl, hV, fun _ _ => Iff.rfl, hσ⟩
  | succ n ih =>
    intro W hV hs ho σ hσ hn
    obtain ⟨W1, k1, k2, k3, k4⟩ := K.silver_ok hL B base E hF he hso hV hs ho hd hσ hn.1
    have hg : ∀ {W W' : World V}, (∀ s d, DimsAre C W' s d ↔ DimsAre C W s d) → ∀ l, InGrid C W' l ↔ InGrid C W l := by
      intro W W' h l
      unfold InGrid
      simp only [h]
    have g1 := hg k3
    obtain ⟨W2, j1, j2, j3, j4⟩ := swap_ok (dv := dv) hL k2 hso ((k3 _ _).2 hs) ((k3 _ _).2 ho) hd (σ := K.result B E.f64 s o nx ny nz σ)
      fun l hl => k4 l ((g1 l).1 hl)
    have d2 : ∀ s d, DimsAre C W2 s d ↔ DimsAre C W s d := fun s d => (j3 s d).trans (k3 s d)
    obtain ⟨W3, i1, i2, i3, i4⟩ := ih W2 j2 ((d2 _ _).2 hs) ((d2 _ _).2 ho) (exchange s o (K.result B E.f64 s o nx ny nz σ))
      (fun l hl => j4 l ((hg j3 l).1 hl)) (hn.next hso)
    refine ⟨W3, ?_, i2, fun s d => (i3 s d).trans (d2 s d), fun l hl => ?_⟩
    · simp only [Jacobi.steps, k1, j1]; exact i1
    · rw [Function.iterate_succ_apply]
      exact i4 l ((hg d2 l).2 hl)

/-- C84 is false: unless the number of cells in a row is 3 modulo 8, the last inner cell of each row is not updated, whatever the old grid
    contains. -/
theorem C84_false_last (hL : C.L.WF) (B : Bits 64 V) (base : Nat → Nat) (E : FEnv) (K : Jacobi) (d e : Ext) (nx ny nz : Int)
    (hF : K.Fit C base d nx ny nz) (he : selectSizes C.tr d = .ok e) (s o : Nat) (hso : s ≠ o) (W : World V) (hV : Valid C dv W)
    (hds : DimsAre C W s d) (hdo : DimsAre C W o d) (hd : d ≠ ⟨0, 0, 0⟩) (σ : Loc → V) (hσ : ∀ l, InGrid C W l → ValueIs C W l (σ l))
    (hnum : K.Numbers B s nx ny nz σ) (h8 : nx % 8 ≠ 3) :
    ∃ σ', Yields C dv W σ' (K.silver C B base E nx ny nz W s o) ∧
      ∀ y z, σ' ⟨o, nx - 2, y, z, K.r, K.k⟩ = σ ⟨o, nx - 2, y, z, K.r, K.k⟩ := by
  obtain ⟨σ', h1, -, -, h2⟩ := C84_partial (dv := dv) hL B base E K d e nx ny nz hF he s o hso W hV hds hdo hd σ hσ hnum
  have hlo := hF.lo
  refine ⟨σ', h1, fun y z => h2 _ ?_⟩
  simp only
  omega

/-- Sums and products which are representable are exact. -/
structure Exact (F : FOps 64) : Prop where
  add : ∀ x y z : BitVec 64, SV.Fmt.double.finite x → SV.Fmt.double.finite y → SV.Fmt.double.finite z →
    SV.Fmt.double.val z = SV.Fmt.double.val x + SV.Fmt.double.val y →
    SV.Fmt.double.finite (F.add x y) ∧ SV.Fmt.double.val (F.add x y) = SV.Fmt.double.val z
  mul : ∀ x y z : BitVec 64, SV.Fmt.double.finite x → SV.Fmt.double.finite y → SV.Fmt.double.finite z →
    SV.Fmt.double.val z = SV.Fmt.double.val x * SV.Fmt.double.val y →
    SV.Fmt.double.finite (F.mul x y) ∧ SV.Fmt.double.val (F.mul x y) = SV.Fmt.double.val z

/-- 1.0 -/
def dOne : BitVec 64 := 0x3ff0000000000000

theorem dOne_val : SV.Fmt.double.finite dOne ∧ SV.Fmt.double.val dOne = 1 := by
  have h1 : SV.Fmt.double.ex dOne = 1023 := by decide
  have h2 : SV.Fmt.double.man dOne = 0 := by decide
  have h3 : SV.Fmt.double.neg dOne = false := by decide
  refine ⟨?_, ?_⟩
  · unfold SV.Fmt.finite; rw [h1]; decide
  · unfold SV.Fmt.val SV.Fmt.mag
    rw [h3, h1, h2]
    norm_num [SV.Fmt.double, SV.Fmt.bias]

theorem dZero_val : SV.Fmt.double.finite (0 : BitVec 64) ∧ SV.Fmt.double.val (0 : BitVec 64) = 0 := by
  have h1 : SV.Fmt.double.ex (0 : BitVec 64) = 0 := by decide
  have h2 : SV.Fmt.double.man (0 : BitVec 64) = 0 := by decide
  refine ⟨?_, ?_⟩
  · unfold SV.Fmt.finite; rw [h1]; decide
  · unfold SV.Fmt.val SV.Fmt.mag
    rw [h1, h2]
    simp

/-- C84 is false: the temperature of a cell in a block has no influence on its new temperature. If only that cell is warm, then the block
    computes zero, but the scalar code computes the cell's weight. -/
theorem C84_false_center (hL : C.L.WF) (B : Bits 64 V) (base : Nat → Nat) (E : FEnv) (hE : Exact E.f64) (K : Jacobi) (d e : Ext)
    (nx ny nz : Int) (hF : K.Fit C base d nx ny nz) (he : selectSizes C.tr d = .ok e) (s o : Nat) (hso : s ≠ o) (W : World V)
    (hV : Valid C dv W) (hds : DimsAre C W s d) (hdo : DimsAre C W o d) (hd : d ≠ ⟨0, 0, 0⟩) (σ : Loc → V)
    (hσ : ∀ l, InGrid C W l → ValueIs C W l (σ l)) (x y z : Int) (hx : 2 ≤ x) (hx' : x < 2 + 8 * ((nx - 3) / 8))
    (hy : 1 ≤ y) (hy' : y < ny - 1) (hz : 1 ≤ z) (hz' : z < nz - 1)
    (hcold : ∀ x' y' z', 0 ≤ x' → x' < nx → 0 ≤ y' → y' < ny → 0 ≤ z' → z' < nz →
      B.bits (σ ⟨s, x', y', z', K.r, K.k⟩) = some (if x' = x ∧ y' = y ∧ z' = z then dOne else 0))
    (hw : ∀ w ∈ [K.S, K.T, K.W, K.C, K.E, K.B, K.N], SV.Fmt.double.finite w) :
    ∃ σ' v, Yields C dv W σ' (K.silver C B base E nx ny nz W s o) ∧ σ' ⟨o, x, y, z, K.r, K.k⟩ = B.val v ∧ SV.Fmt.double.val v = 0 ∧
      ∃ v', K.sum7 B E.f64 s σ x y z = B.val v' ∧ SV.Fmt.double.val v' = SV.Fmt.double.val K.C := by
  have hnum : K.Numbers B s nx ny nz σ := fun x' y' z' h0 h1 h2 h3 h4 h5 => by rw [hcold x' y' z' h0 h1 h2 h3 h4 h5]; rfl
  obtain ⟨σ', h1, -, h2, -⟩ := C84_partial (dv := dv) hL B base E K d e nx ny nz hF he s o hso W hV hds hdo hd σ hσ hnum
  have hn : ∀ x' y' z', 0 ≤ x' → x' < nx → 0 ≤ y' → y' < ny → 0 ≤ z' → z' < nz →
      K.num B s σ x' y' z' = if x' = x ∧ y' = y ∧ z' = z then dOne else 0 := fun x' y' z' h0 h1 h2 h3 h4 h5 => by
    unfold Jacobi.num; rw [hcold x' y' z' h0 h1 h2 h3 h4 h5]; rfl
  have z0 := dZero_val
  have m0 : ∀ w, SV.Fmt.double.finite w → SV.Fmt.double.finite (E.f64.mul 0 w) ∧ SV.Fmt.double.val (E.f64.mul 0 w) = 0 := fun w h => by
    have := hE.mul 0 w 0 z0.1 h z0.1 (by rw [z0.2]; ring)
    rw [z0.2] at this; exact this
  have a0 : ∀ u v q, SV.Fmt.double.finite u → SV.Fmt.double.val u = 0 → SV.Fmt.double.finite v → SV.Fmt.double.val v = q →
      SV.Fmt.double.finite (E.f64.add u v) ∧ SV.Fmt.double.val (E.f64.add u v) = q := fun u v q h1 h2 h3 h4 => by
    have := hE.add u v v h1 h3 h3 (by rw [h2]; ring)
    rw [h4] at this; exact this
  have a1 : ∀ u v q, SV.Fmt.double.finite u → SV.Fmt.double.val u = q → SV.Fmt.double.finite v → SV.Fmt.double.val v = 0 →
      SV.Fmt.double.finite (E.f64.add u v) ∧ SV.Fmt.double.val (E.f64.add u v) = q := fun u v q h1 h2 h3 h4 => by
    have := hE.add u v u h1 h3 h1 (by rw [h4]; ring)
    rw [h2] at this; exact this
  simp only [List.mem_cons, List.not_mem_nil, or_false, forall_eq_or_imp, forall_eq] at hw
  obtain ⟨wS, wT, wW, wC, wE, wB, wN⟩ := hw
  have c1 : E.f64.mul dOne K.C |> fun v => SV.Fmt.double.finite v ∧ SV.Fmt.double.val v = SV.Fmt.double.val K.C :=
    hE.mul dOne K.C K.C dOne_val.1 wC wC (by rw [dOne_val.2]; ring)
  have n1 : K.num B s σ x y (z - 1) = 0 := by rw [hn _ _ _ (by omega) (by omega) (by omega) (by omega) (by omega) (by omega), if_neg (by omega)]
  have n2 : K.num B s σ x (y - 1) z = 0 := by rw [hn _ _ _ (by omega) (by omega) (by omega) (by omega) (by omega) (by omega), if_neg (by omega)]
  have n3 : K.num B s σ (x - 1) y z = 0 := by rw [hn _ _ _ (by omega) (by omega) (by omega) (by omega) (by omega) (by omega), if_neg (by omega)]
  have n4 : K.num B s σ x y z = dOne := by rw [hn _ _ _ (by omega) (by omega) (by omega) (by omega) (by omega) (by omega), if_pos ⟨rfl, rfl, rfl⟩]
  have n5 : K.num B s σ (x + 1) y z = 0 := by rw [hn _ _ _ (by omega) (by omega) (by omega) (by omega) (by omega) (by omega), if_neg (by omega)]
  have n6 : K.num B s σ x (y + 1) z = 0 := by rw [hn _ _ _ (by omega) (by omega) (by omega) (by omega) (by omega) (by omega), if_neg (by omega)]
  have n7 : K.num B s σ x y (z + 1) = 0 := by rw [hn _ _ _ (by omega) (by omega) (by omega) (by omega) (by omega) (by omega), if_neg (by omega)]
  refine ⟨σ', _, h1, (h2 x y z hy hy' hz hz' hx hx').trans rfl, ?_, _, rfl, ?_⟩
  · rw [n1, n2, n3, n5, n6, n7]
    have t1 := a0 _ _ 0 (m0 _ wT).1 (m0 _ wT).2 (m0 _ wS).1 (m0 _ wS).2
    have t2 := a0 _ _ 0 t1.1 t1.2 (m0 _ wW).1 (m0 _ wW).2
    have t3 := a0 _ _ 0 t2.1 t2.2 (m0 _ wE).1 (m0 _ wE).2
    have t4 := a0 _ _ 0 t3.1 t3.2 (m0 _ wB).1 (m0 _ wB).2
    exact (a0 _ _ 0 t4.1 t4.2 (m0 _ wN).1 (m0 _ wN).2).2
  · rw [n1, n2, n3, n4, n5, n6, n7]
    have t1 := a0 _ _ 0 (m0 _ wS).1 (m0 _ wS).2 (m0 _ wT).1 (m0 _ wT).2
    have t2 := a0 _ _ 0 t1.1 t1.2 (m0 _ wW).1 (m0 _ wW).2
    have t3 := a0 _ _ _ t2.1 t2.2 c1.1 c1.2
    have t4 := a1 _ _ _ t3.1 t3.2 (m0 _ wE).1 (m0 _ wE).2
    have t5 := a1 _ _ _ t4.1 t4.2 (m0 _ wB).1 (m0 _ wB).2
    exact (a1 _ _ _ t5.1 t5.2 (m0 _ wN).1 (m0 _ wN).2).2

/-! ### The hypotheses can be met -/
namespace Silver

/-- struct { double temp; double alpha; } with default sizes. Values are bit patterns. -/
def dC : Cfg (BitVec 64) := ⟨[⟨⟨8, true⟩, none, 0⟩, ⟨⟨8, true⟩, none, 0⟩], .dflt, false⟩

theorem hL : dC.L.WF := by
  intro m hm
  simp only [dC, List.mem_cons, List.not_mem_nil, or_false] at hm
  rcases hm with rfl | rfl <;> simp [Member.elems]

def dB : Bits 64 (BitVec 64) := ⟨id, some, fun _ => rfl⟩

/-- The example's weights 0.11 to 0.17, with 0.20 for the cell itself. -/
def jK : Jacobi where
  S := 0x3fbc28f5c28f5c29
  T := 0x3fbeb851eb851eb8
  W := 0x3fc0a3d70a3d70a4
  C := 0x3fc999999999999a
  E := 0x3fc1eb851eb851ec
  B := 0x3fc3333333333333
  N := 0x3fc47ae147ae147b
  r := 0
  k := 0

theorem fit {base : Nat → Nat} (hb : ∀ id, 16 ∣ base id) : jK.Fit dC base ⟨24, 6, 6⟩ 20 6 6 :=
  ⟨.inl rfl, ⟨_, rfl, rfl, by decide⟩, hb, by decide, by decide, by decide, by decide⟩

/-- struct { char tag; double temp; } with custom sizes which are no powers of two meets the hypotheses, too. -/
example {base : Nat → Nat} (hb : ∀ id, 16 ∣ base id) :
    { jK with r := 1 }.Fit (⟨[⟨⟨1, true⟩, none, 0⟩, ⟨⟨8, true⟩, none, 0⟩], .custom [10, 24] [6] [6], false⟩ : Cfg (BitVec 64)) base
      ⟨23, 6, 6⟩ 20 6 6 := by
  refine ⟨.inr fun e he => ?_, ⟨_, rfl, rfl, by decide⟩, hb, by decide, by decide, by decide, by decide⟩
  obtain rfl : e = ⟨24, 6, 6⟩ := by
    have : selectSizes (.custom [10, 24] [6] [6]) ⟨23, 6, 6⟩ = .ok ⟨24, 6, 6⟩ := by decide
    simpa [this] using he.symm
  decide

/-- Two grids; only cell (4, 2, 3) of the first one is warm. -/
theorem world : ∃ (W : World (BitVec 64)) (σ : Loc → BitVec 64), Valid dC 0 W ∧ DimsAre dC W 0 ⟨24, 6, 6⟩ ∧ DimsAre dC W 1 ⟨24, 6, 6⟩ ∧
    (∀ l, InGrid dC W l → ValueIs dC W l (σ l)) ∧
    ∀ x y z, 0 ≤ x → 0 ≤ y → 0 ≤ z → σ ⟨0, x, y, z, 0, 0⟩ = if x = 4 ∧ y = 2 ∧ z = 3 then dOne else 0 := by
  have hd : (⟨24, 6, 6⟩ : Ext) ≠ ⟨0, 0, 0⟩ := by decide
  have he : selectSizes .dflt ⟨24, 6, 6⟩ = .ok ⟨32, 32, 32⟩ := by decide
  have hleg : Spec.Legal dC 0 Spec.start [.new 0 ⟨24, 6, 6⟩, .new 1 ⟨24, 6, 6⟩, .poke 0 4 2 3 0 0 0 0 0 dOne] := by
    refine .new rfl hd he (.new (by simp [World.upd, Spec.start]) hd he ⟨⟨_, _, rfl, rfl, by decide, by decide, by decide, by decide,
      by decide, by decide, by decide⟩, fun _ _ _ => trivial⟩)
  obtain ⟨W, outs, a, h1, h2, h3, -⟩ := run_refines (C := dC) (dv := 0) hL R.init _ [] (by rw [List.append_nil]; exact hleg)
  refine ⟨W, Thr.valA 0 a, ⟨_, _, hleg, h1⟩, ?_⟩
  cases h2 with
  | cons p1 r1 =>
    cases r1 with
    | cons p2 r2 =>
      cases r2 with
      | cons p3 r3 =>
        cases r3
        cases p1 with
        | newFail _ _ _ _ hx => exact absurd (hx.symm.trans he) (by simp)
        | new _ _ e' _ he' =>
          cases p2 with
          | newFail _ _ _ _ hx => exact absurd (hx.symm.trans he) (by simp)
          | new _ _ e'' _ he'' =>
            cases p3 with
            | poke _ _ _ _ _ _ _ _ _ _ g px py pz h hx hy hz =>
              have hg : g = ⟨⟨24, 6, 6⟩, some e', Spec.dfltCells dC.L 0⟩ := by
                have := h.symm.trans ((upd_ne _ _ (show (0 : Nat) ≠ 1 by decide)).trans (upd_self _ _ _))
                simpa using this
              subst hg
              obtain rfl : px = 4 := by omega
              obtain rfl : py = 2 := by omega
              obtain rfl : pz = 3 := by omega
              refine ⟨h3.dims (upd_self _ _ _), h3.dims ((upd_ne _ _ (show (1 : Nat) ≠ 0 by decide)).trans (upd_self _ _ _)), ?_, ?_⟩
              · intro l hl
                have := Thr.peek_step (dv := 0) hL h3 (p := ⟨l.s, l.x, l.y, l.z, 0, 0, 0, l.r, l.k⟩)
                  (by simpa [Thr.Ref.loc] using (Thr.inA_iff h3 l).2 hl)
                simpa [ValueIs, Thr.Ref.loc] using this
              · intro x y z h0 h1 h2
                simp only [Thr.valA, upd_self, Spec.setRow]
                by_cases hc : x = 4 ∧ y = 2 ∧ z = 3
                · obtain ⟨rfl, rfl, rfl⟩ := hc
                  simp [Cell.set]
                · rw [if_neg (by omega), if_neg hc]; rfl

def base : Nat → Nat := fun id => 4096 * (1 + 100000 * id)

theorem base16 (id : Nat) : 16 ∣ base id := ⟨256 * (1 + 100000 * id), by unfold base; omega⟩

theorem numbers {σ : Loc → BitVec 64} (s : Nat) : jK.Numbers dB s 20 6 6 σ := fun _ _ _ _ _ _ _ _ _ => rfl

example : ∃ W σ, Yields dC 0 W (jK.result dB FEnv.demo.f64 0 1 20 6 6 σ) (jK.silver dC dB base FEnv.demo 20 6 6 W 0 1) := by
  obtain ⟨W, σ, hV, h0, h1, hσ, -⟩ := world
  exact ⟨W, σ, jK.silver_ok (e := ⟨32, 32, 32⟩) hL dB base _ (fit base16) (by decide) (by decide) hV h0 h1 (by decide) hσ (numbers 0)⟩

example : ∃ W σ, Yields dC 0 W ((fun σ => exchange 0 1 (jK.result dB FEnv.demo.f64 0 1 20 6 6 σ))^[50] σ)
    (jK.steps dC dB base FEnv.demo 20 6 6 0 1 50 W) := by
  obtain ⟨W, σ, hV, h0, h1, hσ, -⟩ := world
  exact ⟨W, σ, C84_steps_partial hL dB base _ jK ⟨24, 6, 6⟩ ⟨32, 32, 32⟩ 20 6 6 (fit base16) (by decide) 0 1 (by decide) (by decide) 50 W hV h0 h1 σ hσ
    ⟨numbers 0, numbers 1⟩⟩

example : ∃ (W : World (BitVec 64)) (σ σ' : Loc → BitVec 64), Yields dC 0 W σ' (jK.silver dC dB base FEnv.demo 20 6 6 W 0 1) ∧
    ∀ y z, σ' ⟨1, 18, y, z, 0, 0⟩ = σ ⟨1, 18, y, z, 0, 0⟩ := by
  obtain ⟨W, σ, hV, h0, h1, hσ, -⟩ := world
  obtain ⟨σ', k⟩ := C84_false_last hL dB base FEnv.demo jK ⟨24, 6, 6⟩ ⟨32, 32, 32⟩ 20 6 6 (fit base16) (by decide) 0 1 (by decide) W hV h0 h1 (by decide) σ hσ
    (numbers 0) (by decide)
  exact ⟨W, σ, σ', k⟩

/-- There is such an arithmetic. -/
theorem exact_exists : ∃ E : FEnv, Exact E.f64 := by
  classical
  obtain ⟨pick, hp⟩ : ∃ pick : ℚ → BitVec 64, ∀ (z : BitVec 64) (q : ℚ), SV.Fmt.double.finite z → SV.Fmt.double.val z = q →
      SV.Fmt.double.finite (pick q) ∧ SV.Fmt.double.val (pick q) = q := by
    refine ⟨fun q => if h : ∃ z : BitVec 64, SV.Fmt.double.finite z ∧ SV.Fmt.double.val z = q then h.choose else 0, fun z q h1 h2 => ?_⟩
    have h : ∃ z : BitVec 64, SV.Fmt.double.finite z ∧ SV.Fmt.double.val z = q := ⟨z, h1, h2⟩
    simp only [dif_pos h]
    exact h.choose_spec
  obtain ⟨F, hF⟩ : ∃ F : FOps 64, F.add = (fun x y => pick (SV.Fmt.double.val x + SV.Fmt.double.val y)) ∧
      F.mul = fun x y => pick (SV.Fmt.double.val x * SV.Fmt.double.val y) :=
    ⟨{ FEnv.demo.f64 with
        add := fun x y => pick (SV.Fmt.double.val x + SV.Fmt.double.val y)
        mul := fun x y => pick (SV.Fmt.double.val x * SV.Fmt.double.val y) }, rfl, rfl⟩
  refine ⟨⟨FEnv.demo.f32, F⟩, ?_, ?_⟩
  · intro x y z _ _ h3 h4
    have := hp z _ h3 h4
    simp only [hF.1, h4]
    exact this
  · intro x y z _ _ h3 h4
    have := hp z _ h3 h4
    simp only [hF.2, h4]
    exact this

example : ∃ E W σ σ' v, Yields dC 0 W σ' (jK.silver dC dB base E 20 6 6 W 0 1) ∧ σ' ⟨1, 4, 2, 3, 0, 0⟩ = v ∧ SV.Fmt.double.val v = 0 ∧
    ∃ v', jK.sum7 dB E.f64 0 σ 4 2 3 = v' ∧ SV.Fmt.double.val v' = SV.Fmt.double.val jK.C := by
  obtain ⟨W, σ, hV, h0, h1, hσ, hw⟩ := world
  obtain ⟨E, hE⟩ := exact_exists
  obtain ⟨σ', v, k⟩ := C84_false_center hL dB base E hE jK ⟨24, 6, 6⟩ ⟨32, 32, 32⟩ 20 6 6 (fit base16) (by decide) 0 1 (by decide) W hV h0 h1 (by decide) σ hσ
    4 2 3 (by decide) (by decide) (by decide) (by decide) (by decide) (by decide)
    (fun x y z h0 _ h2 _ h4 _ => congrArg some (hw x y z h0 h2 h4))
    (by
      intro w h
      simp only [jK, List.mem_cons, List.not_mem_nil, or_false] at h
      rcases h with rfl | rfl | rfl | rfl | rfl | rfl | rfl <;> (unfold SV.Fmt.finite; decide))
  exact ⟨E, W, σ, σ', v, k⟩

end Silver

end LFA.GK
