/-
  C74: elements are moved between soa_arrays by vectors as by scalar code.
-/
import Verif.Mover
import Verif.Props.SoaArray
import Verif.Props.BufferKernel
set_option linter.unusedSectionVars false
namespace LFA.GK
open SV (Expr Entry FEnv Mem Writes Faithful Transfers Reqs lane FOps Rel)
open Props (ArrValid ListIs)

variable {V : Type} [DecidableEq V] {w : Nat}

/-! ### Scalar code -/

/-- The number by which elements are moved. -/
def Mover.num (M : Mover w V) (c : Cell V) : BitVec w := (M.B.bits (c M.r 0)).getD 0

/-- Does an element move? -/
def Mover.goes (M : Mover w V) (rel : Rel) (b : BitVec w) (c : Cell V) : Bool := M.F.rel rel (M.num c) b

/-- One time step of scalar code which looks at one element after the other: elements of the left list move if they are `>= b`, elements of
    the right list move if they are `< b`. -/
def Mover.scalar (M : Mover w V) (b : BitVec w) (p : List (Cell V) × List (Cell V)) : List (Cell V) × List (Cell V) :=
  (p.1.filter (fun c => !M.goes .ge b c) ++ p.2.filter (M.goes .lt b), p.1.filter (M.goes .ge b) ++ p.2.filter fun c => !M.goes .lt b c)

/-- `n` time steps of scalar code with a constant boundary. -/
def Mover.scalars (M : Mover w V) (b : BitVec w) : Nat → List (Cell V) × List (Cell V) → List (Cell V) × List (Cell V)
  | 0, p => p
  | n + 1, p => M.scalars b n (M.scalar b p)

/-- The struct suits the program: it can be swapped, and the member can be loaded as vectors from arrays of capacity `N`. -/
structure Mover.Fits (M : Mover w V) (N : Nat) : Prop where
  wf : M.L.WF
  triv : ∀ m ∈ M.L, m.ty.triv = true
  base : ∀ s, w / 8 ∣ M.base s
  mem : ∃ m, M.L[M.r]? = some m ∧ m.ty.size = w / 8 ∧ w / 8 ∣ N * offset M.L M.r

/-- All elements hold numbers. -/
def Mover.Numbers (M : Mover w V) (l : List (Cell V)) : Prop := ∀ c ∈ l, (M.B.bits (c M.r 0)).isSome = true

/-! ### Lists by blocks -/

/-- Which of `k` blocks of `N` elements stay and which move if elements are only looked at in those blocks of which one is selected by `b0`. -/
def Mover.blocks (M : Mover w V) (N : Nat) (rel : Rel) (b0 b : BitVec w) : Nat → List (Cell V) → List (Cell V) × List (Cell V)
  | 0, _ => ([], [])
  | k + 1, l =>
    let p := Mover.blocks M N rel b0 b k (l.drop N)
    if (l.take N).any (M.goes rel b0) then ((l.take N).filter (fun c => !M.goes rel b c) ++ p.1, (l.take N).filter (M.goes rel b) ++ p.2)
    else (l.take N ++ p.1, p.2)

theorem blocks_eq (M : Mover w V) (N : Nat) (rel : Rel) (b : BitVec w) : ∀ (k : Nat) (l : List (Cell V)), l.length = k * N →
    M.blocks N rel b b k l = (l.filter (fun c => !M.goes rel b c), l.filter (M.goes rel b)) := by
  intro k
  induction k with
  | zero => intro l h; rw [Nat.zero_mul] at h; rw [List.length_eq_zero_iff.1 h]; rfl
  | succ k ih =>
    intro l h
    have hr := ih (l.drop N) (by rw [List.length_drop, h, Nat.succ_mul]; omega)
    simp only [Mover.blocks, hr]
    conv_rhs => rw [← List.take_append_drop N l, List.filter_append, List.filter_append]
    by_cases ha : (l.take N).any (M.goes rel b) = true
    · rw [if_pos ha]
    · rw [if_neg ha]
      have hn : ∀ c ∈ l.take N, M.goes rel b c = false := by
        intro c hc
        by_contra hg
        exact ha (List.any_eq_true.2 ⟨c, hc, by simpa using hg⟩)
      have e1 : (l.take N).filter (M.goes rel b) = [] := List.filter_eq_nil_iff.2 fun c hc => by rw [hn c hc]; decide
      have e2 : (l.take N).filter (fun c => !M.goes rel b c) = l.take N := List.filter_eq_self.2 fun c hc => by rw [hn c hc]; rfl
      rw [e1, e2, List.nil_append]

theorem filter_lengths {α : Type} (p : α → Bool) (l : List α) : (l.filter fun c => !p c).length + (l.filter p).length = l.length := by
  induction l with
  | nil => rfl
  | cons x l ih => cases h : p x <;> simp [h] <;> omega

theorem blocks_length (M : Mover w V) (N : Nat) (rel : Rel) (b0 b : BitVec w) : ∀ (k : Nat) (l : List (Cell V)), l.length = k * N →
    (M.blocks N rel b0 b k l).1.length + (M.blocks N rel b0 b k l).2.length = l.length := by
  intro k
  induction k with
  | zero => intro l h; simp [Mover.blocks]; omega
  | succ k ih =>
    intro l h
    have hr := ih (l.drop N) (by rw [List.length_drop, h, Nat.succ_mul]; omega)
    have hl : (l.take N).length + (l.drop N).length = l.length := by rw [← List.length_append, List.take_append_drop]
    have hf := filter_lengths (M.goes rel b) (l.take N)
    simp only [Mover.blocks]
    split
    · simp only [List.length_append]; omega
    · simp only [List.length_append]; omega

/-! ### Arrays -/

theorem _root_.LFA.Rep.congr {L : Layout V} {a : SArr V} {N : Nat} {l l' : List (Cell V)} (h : LFA.Rep L a N l) (hlen : l'.length = l.length)
    (hag : ∀ (i : Nat) (c c' : Cell V), l[i]? = some c → l'[i]? = some c' → ∀ r m k, L[r]? = some m → k < m.elems → c r k = c' r k) :
    LFA.Rep L a N l' := by
  obtain ⟨hc, hl, hf, hint, hs, c, hv, hcs⟩ := h
  refine ⟨hc, by omega, by omega, hint, hs, fun i => (l'[i]?).getD (c i), ?_, ?_⟩
  · refine hv.congr fun r m k i hm hk hi => ?_
    simp only [SArr.cont]
    by_cases hlt : i < l'.length
    · have e1 : l'[i]? = some l'[i] := List.getElem?_eq_getElem hlt
      rw [e1, Option.getD_some, hag i _ _ (hcs i (by omega)) e1 r m k hm hk]
    · rw [List.getElem?_eq_none (by omega), Option.getD_none]
  · intro i hi
    simp [List.getElem?_eq_getElem hi]

/-- The source, which may be looked at up to the end of the list `l`, and the two arrays which receive the elements. -/
structure Moving (L : Layout V) (W0 W : ArrWorld V) (src stay dst N : Nat) (a : SArr V) (l k1 k2 : List (Cell V)) : Prop where
  hsrc : W.a src = some a
  rep : LFA.Rep L ⟨a.N, l.length, a.data⟩ N l
  hstay : ∃ a1, W.a stay = some a1 ∧ LFA.Rep L a1 N k1
  hdst : ∃ a2, W.a dst = some a2 ∧ LFA.Rep L a2 N k2
  rest : ∀ s, s ≠ stay → s ≠ dst → W.a s = W0.a s

theorem push_step {L : Layout V} (hL : L.WF) {W : ArrWorld V} {s N : Nat} {a1 : SArr V} {k : List (Cell V)} (ha : W.a s = some a1)
    (hr : LFA.Rep L a1 N k) (hlt : k.length < N) (c t : Cell V) :
    ∃ a', W.step L (.push s (overlay L c t)) = .ok (⟨ArrWorld.upd W.a s (some a'), W.gone⟩, .unit) ∧ LFA.Rep L a' N (k ++ [c]) := by
  obtain ⟨a', h1, h2⟩ := hr.pushBack hL hlt (overlay L c t)
  refine ⟨a', by simp only [ArrWorld.step, ArrWorld.withA, ha, h1, ArrWorld.modify], h2.congr (by simp) ?_⟩
  intro i c1 c2 e1 e2 r m k' hm hk
  by_cases hi : i < k.length
  · rw [List.getElem?_append_left hi] at e1 e2
    rw [e1] at e2
    cases e2
    rfl
  · rw [List.getElem?_append_right (by omega)] at e1 e2
    by_cases h0 : i - k.length = 0
    · rw [h0] at e1 e2
      simp only [List.getElem?_cons_zero, Option.some.injEq] at e1 e2
      subst e1 e2
      simp [overlay, hm, hk]
    · obtain ⟨q, hq⟩ := Nat.exists_eq_succ_of_ne_zero h0
      rw [hq] at e1
      simp at e1

theorem Moving.upd_stay {L : Layout V} {W0 W : ArrWorld V} {src stay dst N : Nat} {a a' : SArr V} {l k1 k1' k2 : List (Cell V)}
    (h : Moving L W0 W src stay dst N a l k1 k2) (h1 : src ≠ stay) (h2 : dst ≠ stay) (hr : LFA.Rep L a' N k1') {g : List (Block V)} :
    Moving L W0 ⟨ArrWorld.upd W.a stay (some a'), g⟩ src stay dst N a l k1' k2 where
  hsrc := by simp only [ArrWorld.upd, if_neg h1]; exact h.hsrc
  rep := h.rep
  hstay := ⟨a', by simp only [ArrWorld.upd, if_true], hr⟩
  hdst := by simp only [ArrWorld.upd, if_neg h2]; exact h.hdst
  rest := fun s e1 e2 => by simp only [ArrWorld.upd, if_neg e1]; exact h.rest s e1 e2

theorem Moving.upd_dst {L : Layout V} {W0 W : ArrWorld V} {src stay dst N : Nat} {a a' : SArr V} {l k1 k2 k2' : List (Cell V)}
    (h : Moving L W0 W src stay dst N a l k1 k2) (h1 : src ≠ dst) (h2 : dst ≠ stay) (hr : LFA.Rep L a' N k2') {g : List (Block V)} :
    Moving L W0 ⟨ArrWorld.upd W.a dst (some a'), g⟩ src stay dst N a l k1 k2' where
  hsrc := by simp only [ArrWorld.upd, if_neg h1]; exact h.hsrc
  rep := h.rep
  hstay := by simp only [ArrWorld.upd, if_neg (Ne.symm h2)]; exact h.hstay
  hdst := ⟨a', by simp only [ArrWorld.upd, if_true], hr⟩
  rest := fun s e1 e2 => by simp only [ArrWorld.upd, if_neg e2]; exact h.rest s e1 e2

theorem Mover.one_ok (M : Mover w V) {N : Nat} (hF : M.Fits N) {rel : Rel} {b : BitVec w} {W0 W : ArrWorld V} {src stay dst : Nat} {a : SArr V}
    {l k1 k2 : List (Cell V)} (h : Moving M.L W0 W src stay dst N a l k1 k2) (h1 : src ≠ stay) (h2 : src ≠ dst) (h3 : dst ≠ stay)
    (hn : M.Numbers l) (hk : k1.length + k2.length < N) {j : Nat} {c : Cell V} (hj : l[j]? = some c) :
    ∃ W', M.one rel b src stay dst j W = .ok (W', .unit) ∧
      Moving M.L W0 W' src stay dst N a l (k1 ++ if M.goes rel b c then [] else [c]) (k2 ++ if M.goes rel b c then [c] else []) := by
  obtain ⟨m, hm, -⟩ := hF.mem
  have hlt : j < l.length := (List.getElem?_eq_some_iff.1 hj).1
  have hb : j < 2 ^ 31 := by have := h.rep.fits; have := h.rep.int; omega
  have e1 : W.step M.L (.peek src (toInt32 j) M.r 0) = .ok (W, .val (c M.r 0)) := by
    have := h.rep.peekAt hF.wf hj hm (hF.wf.elems_pos hm)
    simp only [ArrWorld.step, ArrWorld.withA, h.hsrc, hm, toInt32_small hb, ArrWorld.ro]
    rw [this]
  have e2 : W.step M.L (.get src (toInt32 j) M.t) = .ok (W, .cells [overlay M.L c M.t]) := by
    have := h.rep.getAt hF.wf hj M.t
    simp only [ArrWorld.step, ArrWorld.withA, h.hsrc, toInt32_small hb, ArrWorld.ro]
    rw [this]
  obtain ⟨x, hx⟩ := Option.isSome_iff_exists.1 (hn c (List.mem_of_getElem? hj))
  have hg : M.goes rel b c = M.F.rel rel x b := by simp [Mover.goes, Mover.num, hx]
  unfold Mover.one
  simp only [e1, andThen, hx, e2, ← hg]
  cases hc : M.goes rel b c
  · obtain ⟨a1, ha1, hr1⟩ := h.hstay
    obtain ⟨a', p1, p2⟩ := push_step hF.wf ha1 hr1 (by omega) c M.t
    refine ⟨_, by simpa using p1, ?_⟩
    simpa using h.upd_stay h1 h3 p2
  · obtain ⟨a2, ha2, hr2⟩ := h.hdst
    obtain ⟨a', p1, p2⟩ := push_step hF.wf ha2 hr2 (by omega) c M.t
    refine ⟨_, by simpa using p1, ?_⟩
    simpa using h.upd_dst h2 h3 p2

theorem Mover.each_ok (M : Mover w V) {N : Nat} (hF : M.Fits N) {rel : Rel} {b : BitVec w} {W0 : ArrWorld V} {src stay dst : Nat} {a : SArr V}
    {l : List (Cell V)} (h1 : src ≠ stay) (h2 : src ≠ dst) (h3 : dst ≠ stay) (hn : M.Numbers l) :
    ∀ (n j : Nat) (W : ArrWorld V) (k1 k2 : List (Cell V)), Moving M.L W0 W src stay dst N a l k1 k2 → j + n ≤ l.length →
      k1.length + k2.length + n ≤ N →
      ∃ W', M.each rel b src stay dst n j W = .ok (W', .unit) ∧
        Moving M.L W0 W' src stay dst N a l (k1 ++ ((l.drop j).take n).filter fun c => !M.goes rel b c)
          (k2 ++ ((l.drop j).take n).filter (M.goes rel b)) := by
  intro n
  induction n with
  | zero => intro j W k1 k2 h _ _; exact ⟨W, rfl, by simpa using h⟩
  | succ n ih =>
    intro j W k1 k2 h hj hk
    have hlt : j < l.length := by omega
    obtain ⟨W1, e1, m1⟩ := M.one_ok hF (rel := rel) (b := b) h h1 h2 h3 hn (by omega) (List.getElem?_eq_getElem hlt)
    have hd : (l.drop j).take (n + 1) = l[j] :: (l.drop (j + 1)).take n := by
      rw [List.drop_eq_getElem_cons hlt, List.take_succ_cons]
    obtain ⟨W2, e2, m2⟩ := ih (j + 1) W1 _ _ m1 (by omega) (by
      cases M.goes rel b l[j] <;> simp <;> omega)
    refine ⟨W2, ?_, ?_⟩
    · unfold Mover.each
      rw [e1]
      exact e2
    · rw [hd]
      cases hc : M.goes rel b l[j] <;> simpa [hc] using m2

/-- A vector which is loaded from an array. -/
theorem arrload_ok {L : Layout V} (hL : L.WF) (B : Bits w V) {E : FEnv} {e : Entry w} {Q : Reqs} (T : Transfers e.impl Q E) (hQ : Q.any = 1)
    (hw : 0 < w / 8) {base N r : Nat} {m : Member V} (hb : w / 8 ∣ base) (hm : L[r]? = some m) (hs : m.ty.size = w / 8)
    (ho : w / 8 ∣ N * offset L r) {a : SArr V} {l : List (Cell V)} (hR : LFA.Rep L ⟨a.N, l.length, a.data⟩ N l)
    (hn : ∀ c ∈ l, (B.bits (c r 0)).isSome = true) {i : Nat} (hi : i + e.impl.N ≤ l.length) (hN : 0 < e.impl.N) :
    ∃ y, arrLoad L B E base e a i r = some y ∧
      ∀ q < e.impl.N, ∀ c, l[i + q]? = some c → B.bits (c r 0) = some (lane e.impl y q) := by
  have hlt : i < 2 ^ 31 := by have h1 := hR.fits; have h2 := hR.int; omega
  have hc : a.N = N := hR.cap
  obtain ⟨q, hq⟩ : ((w / 8 : Nat) : Int) ∣ base + ((N * offset L r + i * m.ty.size : Nat) : Int) := by
    rw [hs, ← Int.natCast_add]
    exact Int.natCast_dvd_natCast.2 (Nat.dvd_add hb (Nat.dvd_add ho (Dvd.dvd.mul_left (dvd_refl _) _)))
  have hview : ∀ k < e.impl.N, ∀ c, l[i + k]? = some c → view B m.ty base a.data (q + (k : Nat)) = B.bits (c r 0) := by
    intro k hk c hc'
    have hr := Rep.read hL hR (i := i + k) hc' hm
    have e1 : (q + (k : Nat)) * (w / 8 : Nat) - base = ((N * offset L r + (i + k) * m.ty.size : Nat) : Int) := by
      have : q * (w / 8 : Nat) = base + ((N * offset L r + i * m.ty.size : Nat) : Int) := by rw [Int.mul_comm, ← hq]
      rw [Int.add_mul, this, ← hs]
      push_cast
      ring
    unfold view
    simp only at hr
    rw [e1, hr]
  obtain ⟨y, k1, k2⟩ := Mode.load_ok T .plain (view B m.ty base a.data) q (by simp only [Mode.loadReq, hQ]; exact Int.one_dvd _) fun k hk => by
    have hk' : i + k < l.length := by omega
    rw [hview k hk _ (List.getElem?_eq_getElem hk')]
    exact hn _ (List.getElem_mem hk')
  refine ⟨y, ?_, fun k hk c hc' => ?_⟩
  · unfold arrLoad
    simp only [hm]
    rw [arrElem, arr_ref hL hm hlt, hc]
    rw [if_pos ⟨hs, ⟨q, hq⟩⟩, hq, Int.mul_ediv_cancel_left _ (by omega), Option.bind_some]
    exact k1
  · rw [← hview k hk c hc']
    exact k2 k hk

/-- What is needed of vectors. -/
structure VecOk (e : Entry w) (E : FEnv) (F : FOps w) : Prop where
  loads : ∃ Q : Reqs, Q.any = 1 ∧ Transfers e.impl Q E
  tests : Tests e E F
  bcast : ∀ x, ∀ i < e.impl.N, lane e.impl (e.impl.bcast E x) i = x
  w : 0 < w / 8
  pos : 0 < e.impl.N

section
variable {M : Mover w V} {e : Entry w} {N : Nat}

theorem Mover.block_ok (hF : M.Fits N) (hv : VecOk e M.E M.F) {rel : Rel} {b0 b : BitVec w} {W0 W : ArrWorld V} {src stay dst : Nat}
    {a : SArr V} {l k1 k2 : List (Cell V)} (h : Moving M.L W0 W src stay dst N a l k1 k2) (h1 : src ≠ stay) (h2 : src ≠ dst)
    (h3 : dst ≠ stay) (hn : M.Numbers l) {i : Nat} (hi : i + e.impl.N ≤ l.length) (hk : k1.length + k2.length + e.impl.N ≤ N) :
    ∃ W', M.block e rel (e.impl.bcast M.E b0) b src stay dst i W = .ok (W', .unit) ∧
      Moving M.L W0 W' src stay dst N a l
        (k1 ++ if ((l.drop i).take e.impl.N).any (M.goes rel b0) then ((l.drop i).take e.impl.N).filter fun c => !M.goes rel b c
          else (l.drop i).take e.impl.N)
        (k2 ++ if ((l.drop i).take e.impl.N).any (M.goes rel b0) then ((l.drop i).take e.impl.N).filter (M.goes rel b) else []) := by
  obtain ⟨m, hm, hs, ho⟩ := hF.mem
  obtain ⟨Q, hQ, T⟩ := hv.loads
  obtain ⟨D, hD, hany, -⟩ := hv.tests
  obtain ⟨y, y1, y2⟩ := arrload_ok hF.wf M.B T hQ hv.w (hF.base src) hm hs ho h.rep hn hi hv.pos
  obtain ⟨mk, hmk, ha⟩ := hany rel y (e.impl.bcast M.E b0)
  have hlen : ((l.drop i).take e.impl.N).length = e.impl.N := by simp; omega
  have hlane : ∀ q < e.impl.N, ∀ c, l[i + q]? = some c → M.F.rel rel (lane e.impl y q) (lane e.impl (e.impl.bcast M.E b0) q) = M.goes rel b0 c := by
    intro q hq c hc
    rw [hv.bcast b0 q hq, Mover.goes, Mover.num, y2 q hq c hc]
    rfl
  have hsel : D.any M.E mk = ((l.drop i).take e.impl.N).any (M.goes rel b0) := by
    rw [Bool.eq_iff_iff, ha, List.any_eq_true]
    constructor
    · rintro ⟨q, hq, hr⟩
      have hlt : i + q < l.length := by omega
      have hc := List.getElem?_eq_getElem hlt
      refine ⟨l[i + q], ?_, by rw [← hlane q hq _ hc]; exact hr⟩
      apply List.mem_of_getElem? (i := q)
      rw [List.getElem?_take, if_pos hq, List.getElem?_drop, hc]
    · rintro ⟨c, hc, hg⟩
      obtain ⟨q, hq⟩ := List.mem_iff_getElem?.1 hc
      have hlt : q < e.impl.N := by rw [← hlen]; exact (List.getElem?_eq_some_iff.1 hq).1
      rw [List.getElem?_take, if_pos hlt, List.getElem?_drop] at hq
      exact ⟨q, hlt, by rw [hlane q hlt c hq]; exact hg⟩
  have hb : i < 2 ^ 31 := by have := h.rep.fits; have := h.rep.int; omega
  unfold Mover.block
  simp only [ArrWorld.withA, h.hsrc, y1, Option.bind_some, hD, hmk, Option.map_some, hsel]
  cases hc : ((l.drop i).take e.impl.N).any (M.goes rel b0)
  · obtain ⟨a1, ha1, hr1⟩ := h.hstay
    have hov : ArrSpec.overwrite k1 ((l.drop i).take e.impl.N) k1.length = k1 ++ (l.drop i).take e.impl.N := by
      simp [ArrSpec.overwrite]
    obtain ⟨a', p1, p2⟩ := hr1.load hF.wf h.rep (src := fun _ => a.data) (j := i) (num := e.impl.N) (off := k1.length) (.inl rfl) (le_refl _) hi
      (by omega)
    rw [hov] at p2
    refine ⟨⟨ArrWorld.upd W.a stay (some a'), W.gone⟩, ?_, ?_⟩
    · simp only [ArrWorld.step, ArrWorld.withA, ha1, h.hsrc, toInt32_small hb, Int.toNat_natCast, hr1.len]
      have : ArrWorld.srcOf stay src a = fun _ => a.data := by simp [ArrWorld.srcOf, Ne.symm h1]
      rw [this]
      simp only at p1
      rw [p1]
      rfl
    · simpa using h.upd_stay h1 h3 p2
  · exact M.each_ok hF h1 h2 h3 hn e.impl.N i W k1 k2 h hi hk

theorem Mover.pass_ok (hF : M.Fits N) (hv : VecOk e M.E M.F) {rel : Rel} {b0 b : BitVec w} {W0 : ArrWorld V} {src stay dst : Nat}
    {a : SArr V} {l : List (Cell V)} (h1 : src ≠ stay) (h2 : src ≠ dst) (h3 : dst ≠ stay) (hn : M.Numbers l) {K : Nat}
    (hK : l.length = K * e.impl.N) (hsz : a.n ≤ l.length) (hsz' : l.length < a.n + e.impl.N) :
    ∀ (q p k : Nat) (W : ArrWorld V) (k1 k2 : List (Cell V)), p + q = K → q ≤ k → Moving M.L W0 W src stay dst N a l k1 k2 →
      k1.length + k2.length + q * e.impl.N ≤ N →
      ∃ W', M.pass e rel (e.impl.bcast M.E b0) b src stay dst k (p * e.impl.N) W = .ok (W', .unit) ∧
        Moving M.L W0 W' src stay dst N a l (k1 ++ (M.blocks e.impl.N rel b0 b q (l.drop (p * e.impl.N))).1)
          (k2 ++ (M.blocks e.impl.N rel b0 b q (l.drop (p * e.impl.N))).2) := by
  intro q
  induction q with
  | zero =>
    intro p k W k1 k2 hp _ h _
    have hge : ¬ p * e.impl.N < a.n := by rw [Nat.add_zero] at hp; rw [hp, ← hK]; omega
    refine ⟨W, ?_, by simpa [Mover.blocks] using h⟩
    cases k with
    | zero => simp only [Mover.pass, ArrWorld.withA, h.hsrc, if_neg hge]
    | succ k => simp only [Mover.pass, ArrWorld.withA, h.hsrc, if_neg hge]
  | succ q ih =>
    intro p k W k1 k2 hp hk h hfit
    obtain ⟨k', rfl⟩ : ∃ k', k = k' + 1 := ⟨k - 1, by omega⟩
    have hKe : K * e.impl.N = p * e.impl.N + e.impl.N + q * e.impl.N := by rw [← hp]; ring
    have hfit' : k1.length + k2.length + e.impl.N + q * e.impl.N ≤ N := by rw [Nat.succ_mul] at hfit; omega
    have hlt : p * e.impl.N < a.n := by omega
    obtain ⟨W1, e1, m1⟩ := Mover.block_ok hF hv (rel := rel) (b0 := b0) (b := b) h h1 h2 h3 hn (i := p * e.impl.N) (by omega) (by omega)
    have hlen : ((l.drop (p * e.impl.N)).take e.impl.N).length = e.impl.N := by simp; omega
    obtain ⟨W2, e2, m2⟩ := ih (p + 1) k' W1 _ _ (by omega) (by omega) m1 (by
      simp only [List.length_append]
      split
      · have := filter_lengths (M.goes rel b) ((l.drop (p * e.impl.N)).take e.impl.N)
        omega
      · simp only [List.length_nil]; omega)
    refine ⟨W2, ?_, ?_⟩
    · simp only [Mover.pass, ArrWorld.withA, h.hsrc, if_pos hlt, e1, andThen]
      rw [← Nat.succ_mul]
      exact e2
    · rw [Nat.succ_mul, ← List.drop_drop] at m2
      simp only [Mover.blocks]
      split <;> rename_i hc
      · rw [if_pos hc, if_pos hc] at m2; simpa using m2
      · rw [if_neg hc, if_neg hc] at m2; simpa using m2

/-- The four arrays: `left` and `right` hold the lists, `newLeft` and `newRight` hold whatever. -/
structure Four (L : Layout V) (W : ArrWorld V) (N : Nat) (l0 l1 : List (Cell V)) : Prop where
  left : ∃ a, W.a 0 = some a ∧ LFA.Rep L a N l0
  right : ∃ a, W.a 1 = some a ∧ LFA.Rep L a N l1
  newLeft : ∃ a l, W.a 2 = some a ∧ LFA.Rep L a N l
  newRight : ∃ a l, W.a 3 = some a ∧ LFA.Rep L a N l

theorem swap_rep {L : Layout V} (hT : ArrSpec.trivial L = true) {W : ArrWorld V} {s t N : Nat} {a b : SArr V} {l k : List (Cell V)} (hst : s ≠ t)
    (ha : W.a s = some a) (hb : W.a t = some b) (hra : LFA.Rep L a N l) (hrb : LFA.Rep L b N k) :
    ∃ W' a' b', W.step L (.swap s t) = .ok (W', .unit) ∧ W'.a s = some a' ∧ W'.a t = some b' ∧ LFA.Rep L a' N k ∧ LFA.Rep L b' N l ∧
      ∀ q, q ≠ s → q ≠ t → W'.a q = W.a q := by
  have e1 := hra.bytewise hT
  have e2 := hrb.bytewise hT
  rw [hra.cap] at e1
  rw [hrb.cap] at e2
  refine ⟨⟨ArrWorld.upd (ArrWorld.upd W.a s (some ⟨a.N, b.n, b.data.bytes⟩)) t (some ⟨b.N, a.n, a.data.bytes⟩), W.gone⟩, ⟨N, b.n, b.data.bytes⟩,
    ⟨N, a.n, a.data.bytes⟩, ?_, ?_, ?_, e2, e1, fun q h1 h2 => ?_⟩
  · simp only [ArrWorld.step, ArrWorld.withA, ha, hb]
  · simp only [ArrWorld.upd, if_neg hst, if_true, hra.cap]
  · simp only [ArrWorld.upd, if_true, hrb.cap]
  · simp only [ArrWorld.upd, if_neg h1, if_neg h2]

/-- A time step in terms of the lists `p0` and `p1` of whole blocks which begin with the elements of `left` and `right`. -/
theorem Mover.step_ok (hF : M.Fits N) (hv : VecOk e M.E M.F) {b0 b : BitVec w} {W : ArrWorld V} {a0 a1 : SArr V} {l0 l1 p0 p1 : List (Cell V)}
    (h : Four M.L W N l0 l1) (h0 : W.a 0 = some a0) (h1 : W.a 1 = some a1) (r0 : LFA.Rep M.L ⟨a0.N, p0.length, a0.data⟩ N p0)
    (r1 : LFA.Rep M.L ⟨a1.N, p1.length, a1.data⟩ N p1) {K0 K1 : Nat} (k0 : p0.length = K0 * e.impl.N) (k1 : p1.length = K1 * e.impl.N)
    (s0 : l0.length ≤ p0.length) (s0' : p0.length < l0.length + e.impl.N) (s1 : l1.length ≤ p1.length)
    (s1' : p1.length < l1.length + e.impl.N) (n0 : M.Numbers p0) (n1 : M.Numbers p1) (hfit : p0.length + p1.length ≤ N) :
    ∃ W', M.step e (e.impl.bcast M.E b0) b W = .ok (W', .unit) ∧
      Four M.L W' N ((M.blocks e.impl.N .ge b0 b K0 p0).1 ++ (M.blocks e.impl.N .lt b0 b K1 p1).2)
        ((M.blocks e.impl.N .ge b0 b K0 p0).2 ++ (M.blocks e.impl.N .lt b0 b K1 p1).1) := by
  have hT : ArrSpec.trivial M.L = true := by
    rw [ArrSpec.trivial, List.all_eq_true]
    exact hF.triv
  obtain ⟨a, ha, hra⟩ := h.left
  rw [h0] at ha; cases ha
  obtain ⟨a, ha, hrb⟩ := h.right
  rw [h1] at ha; cases ha
  obtain ⟨a2, l2, h2, r2⟩ := h.newLeft
  obtain ⟨a3, l3, h3, r3⟩ := h.newRight
  have t2 := r2.take (n := 0) (Nat.zero_le _)
  have t3 := r3.take (n := 0) (Nat.zero_le _)
  rw [List.take_zero] at t2 t3
  have hle : ∀ K n len : Nat, len = K * e.impl.N → len < n + e.impl.N → K ≤ n := by
    intro K n len h1 h2
    by_contra hc
    have hpos := hv.pos
    obtain ⟨d, rfl⟩ : ∃ d, K = n + 1 + d := ⟨K - (n + 1), by omega⟩
    have : (n + 1 + d) * e.impl.N = n * e.impl.N + e.impl.N + d * e.impl.N := by ring
    have : n ≤ n * e.impl.N := Nat.le_mul_of_pos_right n hpos
    omega
  -- the arrays are cleared
  let W1 : ArrWorld V := ⟨ArrWorld.upd W.a 2 (some { a2 with n := 0 }), W.gone⟩
  let W2 : ArrWorld V := ⟨ArrWorld.upd W1.a 3 (some { a3 with n := 0 }), W1.gone⟩
  have c1 : W.step M.L (.clear 2) = .ok (W1, .unit) := by simp only [ArrWorld.step, ArrWorld.withA, h2, W1]
  have c2 : W1.step M.L (.clear 3) = .ok (W2, .unit) := by simp [ArrWorld.step, ArrWorld.withA, W1, W2, ArrWorld.upd, h3]
  have g0 : W2.a 0 = some a0 := by simp [W2, W1, ArrWorld.upd, h0]
  have g1 : W2.a 1 = some a1 := by simp [W2, W1, ArrWorld.upd, h1]
  have m0 : Moving M.L W2 W2 0 2 3 N a0 p0 [] [] :=
    ⟨g0, r0, ⟨{ a2 with n := 0 }, by simp [W2, W1, ArrWorld.upd], t2⟩, ⟨{ a3 with n := 0 }, by simp [W2, ArrWorld.upd], t3⟩, fun _ _ _ => rfl⟩
  obtain ⟨W3, d1, m1⟩ := Mover.pass_ok hF hv (rel := .ge) (b0 := b0) (b := b) (by decide) (by decide) (by decide) n0 k0
    (by rw [hra.len]; exact s0) (by rw [hra.len]; exact s0') K0 0 a0.n W2 [] [] (by omega)
    (hle _ _ _ k0 (by rw [hra.len]; exact s0')) m0 (by simp; omega)
  simp only [Nat.zero_mul, List.drop_zero, List.nil_append] at d1 m1
  have g1' : W3.a 1 = some a1 := by rw [m1.rest 1 (by decide) (by decide)]; exact g1
  have hl := blocks_length M e.impl.N .ge b0 b K0 p0 k0
  obtain ⟨W4, d2, m2⟩ := Mover.pass_ok hF hv (rel := .lt) (b0 := b0) (b := b) (W0 := W3) (src := 1) (stay := 3) (dst := 2) (a := a1) (l := p1)
    (by decide) (by decide) (by decide) n1 k1
    (by rw [hrb.len]; exact s1) (by rw [hrb.len]; exact s1') K1 0 a1.n W3 _ _ (by omega)
    (hle _ _ _ k1 (by rw [hrb.len]; exact s1')) ⟨g1', r1, m1.hdst, m1.hstay, fun _ _ _ => rfl⟩ (by omega)
  simp only [Nat.zero_mul, List.drop_zero] at d2 m2
  have f0 : W4.a 0 = some a0 := by rw [m2.rest 0 (by decide) (by decide)]; exact m1.hsrc
  obtain ⟨b3, hb3, rb3⟩ := m2.hstay
  obtain ⟨b2, hb2, rb2⟩ := m2.hdst
  obtain ⟨W5, x0, x2, w1, w2, w3, w4, w5, w6⟩ := swap_rep hT (s := 0) (t := 2) (by decide) f0 hb2 hra rb2
  obtain ⟨W6, y1, y3, v1, v2, v3, v4, v5, v6⟩ := swap_rep hT (s := 1) (t := 3) (by decide)
    (by rw [w6 1 (by decide) (by decide)]; exact m2.hsrc) (by rw [w6 3 (by decide) (by decide)]; exact hb3) hrb rb3
  refine ⟨W6, ?_, ⟨x0, by rw [v6 0 (by decide) (by decide)]; exact w2, w4⟩, ⟨y1, v2, v4⟩,
    ⟨x2, _, by rw [v6 2 (by decide) (by decide)]; exact w3, w5⟩, ⟨y3, _, v3, v5⟩⟩
  unfold Mover.step
  simp only [c1, andThen, c2, withSize, ArrWorld.withA, g0, d1, g1', d2, w1, v1]

/-! ### Observations -/

theorem overlay_at {L : Layout V} {c t : Cell V} {r k : Nat} {m : Member V} (hm : L[r]? = some m) (hk : k < m.elems) : overlay L c t r k = c r k := by
  simp [overlay, hm, hk]

/-- What is observed is what is stored. -/
theorem listIs_rep {L : Layout V} (hL : L.WF) (dv : V) {W : ArrWorld V} (hV : ArrValid L W) {s N : Nat} {l : List (Cell V)} (h : ListIs L W s N l) :
    ∃ a, W.a s = some a ∧ LFA.Rep L a N l := by
  obtain ⟨σ, a, l', -, -, ha, hr, hlen, hag⟩ := h.rep hL dv hV
  refine ⟨a, ha, hr.congr hlen fun i c c' e1 e2 r m k hm hk => ?_⟩
  have := congrFun (congrFun (hag i c' c e2 e1 c) r) k
  rw [overlay_at hm hk, overlay_at hm hk] at this
  exact this.symm

/-- The storage behind the elements can be read. -/
theorem rep_pad {L : Layout V} {a : SArr V} {N : Nat} {l : List (Cell V)} (h : LFA.Rep L a N l) {m : Nat} (hm : m ≤ N) :
    ∃ p, p.length = m ∧ LFA.Rep L ⟨a.N, m, a.data⟩ N p := by
  obtain ⟨hc, hl, hf, hint, hs, c, hv, hcs⟩ := h
  refine ⟨(List.range m).map c, by simp, hc, by simp, by simpa using hm, hint, hs, c, hv, fun i hi => ?_⟩
  rw [List.length_map, List.length_range] at hi
  simp [hi]

/-- Arrays of capacity `N` whose observed contents are `l0` and `l1`, and two more arrays. -/
structure Arrays (L : Layout V) (W : ArrWorld V) (N : Nat) (l0 l1 : List (Cell V)) : Prop where
  left : ListIs L W 0 N l0
  right : ListIs L W 1 N l1
  newLeft : ∃ l, ListIs L W 2 N l
  newRight : ∃ l, ListIs L W 3 N l

theorem Arrays.four {L : Layout V} (hL : L.WF) (dv : V) {W : ArrWorld V} (hV : ArrValid L W) {N : Nat} {l0 l1 : List (Cell V)} (h : Arrays L W N l0 l1) :
    Four L W N l0 l1 := by
  obtain ⟨l2, h2⟩ := h.newLeft
  obtain ⟨l3, h3⟩ := h.newRight
  obtain ⟨a2, q2, r2⟩ := listIs_rep hL dv hV h2
  obtain ⟨a3, q3, r3⟩ := listIs_rep hL dv hV h3
  exact ⟨listIs_rep hL dv hV h.left, listIs_rep hL dv hV h.right, ⟨a2, l2, q2, r2⟩, ⟨a3, l3, q3, r3⟩⟩

theorem Four.arrays {L : Layout V} (hL : L.WF) {W : ArrWorld V} {N : Nat} {l0 l1 : List (Cell V)} (h : Four L W N l0 l1) :
    Arrays L W N l0 l1 := by
  obtain ⟨a0, q0, r0⟩ := h.left
  obtain ⟨a1, q1, r1⟩ := h.right
  obtain ⟨a2, l2, q2, r2⟩ := h.newLeft
  obtain ⟨a3, l3, q3, r3⟩ := h.newRight
  exact ⟨ListIs.of_rep hL q0 r0, ListIs.of_rep hL q1 r1, ⟨l2, ListIs.of_rep hL q2 r2⟩, ⟨l3, ListIs.of_rep hL q3 r3⟩⟩

theorem dvd_blocks {A n : Nat} (h : A ∣ n) : n = n / A * A := (Nat.div_mul_cancel h).symm

/-- A time step if all blocks are whole. -/
theorem Mover.whole_ok (hF : M.Fits N) (hv : VecOk e M.E M.F) {b0 b : BitVec w} {W : ArrWorld V} {l0 l1 : List (Cell V)}
    (h : Four M.L W N l0 l1) (d0 : e.impl.N ∣ l0.length) (d1 : e.impl.N ∣ l1.length) (n0 : M.Numbers l0) (n1 : M.Numbers l1)
    (hfit : l0.length + l1.length ≤ N) :
    ∃ W', M.step e (e.impl.bcast M.E b0) b W = .ok (W', .unit) ∧
      Four M.L W' N ((M.blocks e.impl.N .ge b0 b (l0.length / e.impl.N) l0).1 ++ (M.blocks e.impl.N .lt b0 b (l1.length / e.impl.N) l1).2)
        ((M.blocks e.impl.N .ge b0 b (l0.length / e.impl.N) l0).2 ++ (M.blocks e.impl.N .lt b0 b (l1.length / e.impl.N) l1).1) := by
  obtain ⟨a0, q0, r0⟩ := h.left
  obtain ⟨a1, q1, r1⟩ := h.right
  have hpos := hv.pos
  have e0 : (⟨a0.N, l0.length, a0.data⟩ : SArr V) = a0 := by cases a0; simp only [← r0.len]
  have e1 : (⟨a1.N, l1.length, a1.data⟩ : SArr V) = a1 := by cases a1; simp only [← r1.len]
  exact Mover.step_ok hF hv h q0 q1 (by rw [e0]; exact r0) (by rw [e1]; exact r1) (dvd_blocks d0) (dvd_blocks d1)
    (le_refl _) (by omega) (le_refl _) (by omega) n0 n1 hfit

theorem Mover.scalar_numbers {b : BitVec w} {p : List (Cell V) × List (Cell V)} (h : M.Numbers p.1 ∧ M.Numbers p.2) :
    M.Numbers (M.scalar b p).1 ∧ M.Numbers (M.scalar b p).2 := by
  refine ⟨fun c hc => ?_, fun c hc => ?_⟩ <;>
  · rcases List.mem_append.1 hc with hc | hc
    · exact h.1 c (List.mem_filter.1 hc).1
    · exact h.2 c (List.mem_filter.1 hc).1

theorem Mover.scalar_length (b : BitVec w) (p : List (Cell V) × List (Cell V)) :
    (M.scalar b p).1.length + (M.scalar b p).2.length = p.1.length + p.2.length := by
  have h1 := filter_lengths (M.goes .ge b) p.1
  have h2 := filter_lengths (M.goes .lt b) p.2
  simp only [Mover.scalar, List.length_append]
  omega

theorem Mover.scalar_ok (hF : M.Fits N) (hv : VecOk e M.E M.F) {b : BitVec w} {W : ArrWorld V} {p : List (Cell V) × List (Cell V)}
    (h : Four M.L W N p.1 p.2) (d0 : e.impl.N ∣ p.1.length) (d1 : e.impl.N ∣ p.2.length) (hn : M.Numbers p.1 ∧ M.Numbers p.2)
    (hfit : p.1.length + p.2.length ≤ N) :
    ∃ W', M.step e (e.impl.bcast M.E b) b W = .ok (W', .unit) ∧ Four M.L W' N (M.scalar b p).1 (M.scalar b p).2 := by
  obtain ⟨W', h1, h2⟩ := Mover.whole_ok hF hv (b0 := b) (b := b) h d0 d1 hn.1 hn.2 hfit
  rw [blocks_eq M _ _ _ _ _ (dvd_blocks d0), blocks_eq M _ _ _ _ _ (dvd_blocks d1)] at h2
  exact ⟨W', h1, h2⟩

theorem Mover.scalars_succ (b : BitVec w) : ∀ (n : Nat) (p : List (Cell V) × List (Cell V)),
    M.scalars b (n + 1) p = M.scalars b n (M.scalar b p) := fun _ _ => rfl

theorem Mover.steps_ok (hF : M.Fits N) (hv : VecOk e M.E M.F) {flip : BitVec w → BitVec w} {b : BitVec w} :
    ∀ (n : Nat) (W : ArrWorld V) (p : List (Cell V) × List (Cell V)), (n ≤ 1 ∨ flip b = b) → Four M.L W N p.1 p.2 →
      (∀ t < n, e.impl.N ∣ (M.scalars b t p).1.length ∧ e.impl.N ∣ (M.scalars b t p).2.length) → M.Numbers p.1 ∧ M.Numbers p.2 →
      p.1.length + p.2.length ≤ N →
      ∃ W', M.steps e (e.impl.bcast M.E b) flip n b W = .ok (W', .unit) ∧ Four M.L W' N (M.scalars b n p).1 (M.scalars b n p).2 := by
  intro n
  induction n with
  | zero => intro W p _ h _ _ _; exact ⟨W, rfl, h⟩
  | succ n ih =>
    intro W p hb h hd hn hfit
    obtain ⟨d0, d1⟩ := hd 0 (by omega)
    obtain ⟨W1, e1, f1⟩ := Mover.scalar_ok hF hv (b := b) h d0 d1 hn hfit
    rcases Nat.eq_zero_or_pos n with rfl | hpos
    · refine ⟨W1, ?_, f1⟩
      simp only [Mover.steps, e1, andThen]
    · have hb' : flip b = b := by rcases hb with h | h; exact absurd h (by omega); exact h
      obtain ⟨W2, e2, f2⟩ := ih W1 (M.scalar b p) (.inr hb') f1 (fun t ht => hd (t + 1) (by omega)) (Mover.scalar_numbers hn)
        (by rw [Mover.scalar_length]; exact hfit)
      refine ⟨W2, ?_, f2⟩
      simp only [Mover.steps, e1, andThen, hb']
      exact e2

/-- An arithmetic type whose vectors move elements as scalars. -/
theorem mover_ok (hF : M.Fits N) (hv : VecOk e M.E M.F) (dv : V) (flip : BitVec w → BitVec w) (b : BitVec w) (n : Nat) (hb : n ≤ 1 ∨ flip b = b)
    (W : ArrWorld V) (hV : ArrValid M.L W) (l0 l1 : List (Cell V)) (h : Arrays M.L W N l0 l1)
    (hd : ∀ t < n, e.impl.N ∣ (M.scalars b t (l0, l1)).1.length ∧ e.impl.N ∣ (M.scalars b t (l0, l1)).2.length)
    (hn : M.Numbers l0 ∧ M.Numbers l1) (hfit : l0.length + l1.length ≤ N) :
    ∃ W', M.run e flip n b W = .ok (W', .unit) ∧ Arrays M.L W' N (M.scalars b n (l0, l1)).1 (M.scalars b n (l0, l1)).2 := by
  obtain ⟨W', h1, h2⟩ := Mover.steps_ok hF hv (flip := flip) n W (l0, l1) hb (h.four hF.wf dv hV) hd hn hfit
  exact ⟨W', h1, h2.arrays hF.wf⟩

/-- Elements between two boundaries stay, although the scalar boundary changes. -/
theorem mover_stale (hF : M.Fits N) (hv : VecOk e M.E M.F) (dv : V) (flip : BitVec w → BitVec w) (b : BitVec w)
    (W : ArrWorld V) (hV : ArrValid M.L W) (l : List (Cell V)) (h : Arrays M.L W N l [])
    (hd : e.impl.N ∣ l.length) (hn : M.Numbers l) (hfit : l.length ≤ N) (hg : ∀ c ∈ l, M.goes .ge b c = false)
    (hg' : ∀ c ∈ l, M.goes .ge (flip b) c = true) :
    (∃ W', M.run e flip 2 b W = .ok (W', .unit) ∧ Arrays M.L W' N l []) ∧ M.scalar (flip b) (M.scalar b (l, [])) = ([], l) := by
  have key : ∀ b', (M.blocks e.impl.N .ge b b' (l.length / e.impl.N) l) = (l, []) := by
    intro b'
    have : ∀ (k : Nat) (l : List (Cell V)), l.length = k * e.impl.N → (∀ c ∈ l, M.goes .ge b c = false) → M.blocks e.impl.N .ge b b' k l = (l, []) := by
      intro k
      induction k with
      | zero => intro l hl _; rw [Nat.zero_mul] at hl; rw [List.length_eq_zero_iff.1 hl]; rfl
      | succ k ih =>
        intro l hl hc
        have hr := ih (l.drop e.impl.N) (by rw [List.length_drop, hl, Nat.succ_mul]; omega) fun c h => hc c (List.mem_of_mem_drop h)
        simp only [Mover.blocks, hr]
        rw [if_neg, List.take_append_drop]
        intro ha
        obtain ⟨c, h1, h2⟩ := List.any_eq_true.1 ha
        rw [hc c (List.mem_of_mem_take h1)] at h2
        cases h2
    exact this _ l (dvd_blocks hd) hg
  refine ⟨?_, ?_⟩
  · have hf := h.four hF.wf dv hV
    have hz : e.impl.N ∣ ([] : List (Cell V)).length := by simp
    have hnn : M.Numbers [] := fun c hc => by cases hc
    have hz0 : ∀ b', M.blocks e.impl.N .lt b b' (([] : List (Cell V)).length / e.impl.N) [] = ([], []) := by
      intro b'
      rw [List.length_nil, Nat.zero_div]; rfl
    obtain ⟨W1, e1, f1⟩ := Mover.whole_ok hF hv (b0 := b) (b := b) hf hd hz hn hnn (by simpa using hfit)
    rw [key, hz0] at f1
    simp only [List.append_nil] at f1
    obtain ⟨W2, e2, f2⟩ := Mover.whole_ok hF hv (b0 := b) (b := flip b) f1 hd hz hn hnn (by simpa using hfit)
    rw [key, hz0] at f2
    simp only [List.append_nil] at f2
    exact ⟨W2, by simp only [Mover.run, Mover.steps, e1, andThen, e2], f2.arrays hF.wf⟩
  · have e1 : M.scalar b (l, []) = (l, []) := by
      simp only [Mover.scalar, List.filter_nil, List.append_nil]
      rw [List.filter_eq_self.2 fun c hc => by rw [hg c hc]; rfl, List.filter_eq_nil_iff.2 fun c hc => by rw [hg c hc]; decide]
    rw [e1]
    simp only [Mover.scalar, List.filter_nil, List.append_nil]
    rw [List.filter_eq_self.2 fun c hc => hg' c hc, List.filter_eq_nil_iff.2 fun c hc => by rw [hg' c hc]; decide]

/-- The number of elements if only whole blocks are used. -/
def roundUp (A n : Nat) : Nat := (n + A - 1) / A * A

/-- Elements appear if there are blocks which are not whole. -/
theorem mover_sizes (hF : M.Fits N) (hv : VecOk e M.E M.F) (dv : V) (flip : BitVec w → BitVec w) (b : BitVec w)
    (W : ArrWorld V) (hV : ArrValid M.L W) (l0 l1 : List (Cell V)) (h : Arrays M.L W N l0 l1)
    (hn : ∀ s < 2, ∀ i < N, ∃ v, W.step M.L (.peek s (i : Nat) M.r 0) = .ok (W, .val v) ∧ (M.B.bits v).isSome = true)
    (hfit : roundUp e.impl.N l0.length + roundUp e.impl.N l1.length ≤ N) :
    ∃ W' l0' l1', M.run e flip 1 b W = .ok (W', .unit) ∧ Arrays M.L W' N l0' l1' ∧
      l0'.length + l1'.length = roundUp e.impl.N l0.length + roundUp e.impl.N l1.length := by
  have hpos := hv.pos
  have hru : ∀ n, n ≤ roundUp e.impl.N n ∧ roundUp e.impl.N n < n + e.impl.N := by
    intro n
    unfold roundUp
    have := Nat.div_add_mod (n + e.impl.N - 1) e.impl.N
    have := Nat.mod_lt (n + e.impl.N - 1) hpos
    have : e.impl.N * ((n + e.impl.N - 1) / e.impl.N) = (n + e.impl.N - 1) / e.impl.N * e.impl.N := Nat.mul_comm _ _
    omega
  have hf := h.four hF.wf dv hV
  obtain ⟨a0, q0, r0⟩ := hf.left
  obtain ⟨a1, q1, r1⟩ := hf.right
  obtain ⟨p0, z0, w0⟩ := rep_pad r0 (m := roundUp e.impl.N l0.length) (by omega)
  obtain ⟨p1, z1, w1⟩ := rep_pad r1 (m := roundUp e.impl.N l1.length) (by omega)
  rw [← z0] at w0
  rw [← z1] at w1
  have num : ∀ s < 2, ∀ a p, W.a s = some a → LFA.Rep M.L ⟨a.N, p.length, a.data⟩ N p → M.Numbers p := by
    intro s hs a p ha hr c hc
    obtain ⟨i, hi⟩ := List.mem_iff_getElem?.1 hc
    obtain ⟨m, hm, -⟩ := hF.mem
    have hlt : i < p.length := (List.getElem?_eq_some_iff.1 hi).1
    obtain ⟨v, hv, hb⟩ := hn s hs i (by have := hr.fits; omega)
    have := hr.peekAt hF.wf hi hm (hF.wf.elems_pos hm)
    simp only [ArrWorld.step, ArrWorld.withA, ha, hm, ArrWorld.ro] at hv
    simp only at this
    rw [this] at hv
    simp only [Except.ok.injEq, Prod.mk.injEq, true_and, ArrOut.val.injEq] at hv
    rw [hv]
    exact hb
  have x0 := hru l0.length
  have x1 := hru l1.length
  obtain ⟨W', s1, s2⟩ := Mover.step_ok hF hv (b0 := b) (b := b) hf q0 q1 w0 w1 z0 z1 (by omega) (by omega) (by omega) (by omega)
    (num 0 (by omega) a0 p0 q0 w0) (num 1 (by omega) a1 p1 q1 w1) (by omega)
  refine ⟨W', _, _, by simp only [Mover.run, Mover.steps, s1, andThen], s2.arrays hF.wf, ?_⟩
  have y0 := blocks_length M e.impl.N .ge b b _ p0 z0
  have y1 := blocks_length M e.impl.N .lt b b _ p1 z1
  simp only [List.length_append]
  omega

end

/-! ### C74 -/

theorem float_vecOk (c : SV.Cfg) (e : Entry 32) (he : e ∈ SV.floatVecs c) (hcmp : SV.hasFloatCmp c e.impl.N = true) (E : FEnv) :
    VecOk e E E.f32 := by
  have hN := SV.float_arity c e he
  obtain ⟨D, hD⟩ := Option.isSome_iff_exists.1 ((SV.C45_float_available c e he).trans hcmp)
  refine ⟨⟨_, ?_, SV.C46_float_partial c e he E⟩, tests (F := FEnv.f32) hD (SV.float_arith c e he).len (SV.float_cmp c e he D hD),
    (SV.float_faithful c e he E).bcast, by decide, ?_⟩
  · have : ∀ n ∈ [1, 2, 4, 8, 16, 32], SV.hasFloatCmp c n = true → (SV.floatReqs c n).any = 1 := by cases c <;> decide
    exact this _ hN hcmp
  · have : ∀ n ∈ [1, 2, 4, 8, 16, 32], 0 < n := by decide
    exact this _ hN

theorem double_vecOk (c : SV.Cfg) (e : Entry 64) (he : e ∈ SV.doubleVecs c) (hcmp : SV.hasDoubleCmp c e.impl.N = true) (E : FEnv) :
    VecOk e E E.f64 := by
  have hN := SV.double_arity c e he
  have hqpx : ¬ (c = .qpx ∧ 2 < e.impl.N) := by
    rintro ⟨rfl, h⟩
    simp only [SV.hasDoubleCmp, decide_eq_true_eq] at hcmp
    omega
  obtain ⟨D, hD⟩ := Option.isSome_iff_exists.1 ((SV.C45_double_available c e he).trans hcmp)
  refine ⟨⟨_, ?_, SV.C46_double_partial c e he E⟩, tests (F := FEnv.f64) hD (SV.double_arith c e he).len (SV.double_cmp c e he D hD),
    (SV.double_faithful c e he E).bcast, by decide, ?_⟩
  · have : ∀ n ∈ [1, 2, 4, 8, 16, 32], ¬ (c = .qpx ∧ 2 < n) → (SV.doubleReqs c n).any = 1 := by cases c <;> decide
    exact this _ hN hqpx
  · have : ∀ n ∈ [1, 2, 4, 8, 16, 32], 0 < n := by decide
    exact this _ hN

/-- C74 for `float`: on each target and with each arity, moving elements between two soa_arrays by blocks yields the arrays (with the same
    order) which moving them one by one yields. Missing: numbers of elements which are no multiples of the arity (C74_false_size), and several
    time steps with a boundary which changes (C74_false_boundary). -/
theorem C74_float_partial (c : SV.Cfg) (e : Entry 32) (he : e ∈ SV.floatVecs c) (hcmp : SV.hasFloatCmp c e.impl.N = true) (E : FEnv)
    (L : Layout V) (B : Bits 32 V) (base : Nat → Nat) (r : Nat) (t : Cell V) (N : Nat) (hF : (⟨L, B, base, E, E.f32, r, t⟩ : Mover 32 V).Fits N)
    (dv : V) (flip : BitVec 32 → BitVec 32) (b : BitVec 32) (n : Nat) (hb : n ≤ 1 ∨ flip b = b)
    (W : ArrWorld V) (hV : ArrValid L W) (l0 l1 : List (Cell V)) (h : Arrays L W N l0 l1)
    (hd : ∀ q < n, e.impl.N ∣ ((⟨L, B, base, E, E.f32, r, t⟩ : Mover 32 V).scalars b q (l0, l1)).1.length ∧
      e.impl.N ∣ ((⟨L, B, base, E, E.f32, r, t⟩ : Mover 32 V).scalars b q (l0, l1)).2.length)
    (hn : ∀ c ∈ l0 ++ l1, (B.bits (c r 0)).isSome = true) (hfit : l0.length + l1.length ≤ N) :
    ∃ W', (⟨L, B, base, E, E.f32, r, t⟩ : Mover 32 V).run e flip n b W = .ok (W', .unit) ∧
      Arrays L W' N ((⟨L, B, base, E, E.f32, r, t⟩ : Mover 32 V).scalars b n (l0, l1)).1
        ((⟨L, B, base, E, E.f32, r, t⟩ : Mover 32 V).scalars b n (l0, l1)).2 :=
  mover_ok (M := ⟨L, B, base, E, E.f32, r, t⟩) hF (float_vecOk c e he hcmp E) dv flip b n hb W hV l0 l1 h hd
    ⟨fun c hc => hn c (List.mem_append_left _ hc), fun c hc => hn c (List.mem_append_right _ hc)⟩ hfit

/-- C74 for `double`. -/
theorem C74_double_partial (c : SV.Cfg) (e : Entry 64) (he : e ∈ SV.doubleVecs c) (hcmp : SV.hasDoubleCmp c e.impl.N = true) (E : FEnv)
    (L : Layout V) (B : Bits 64 V) (base : Nat → Nat) (r : Nat) (t : Cell V) (N : Nat) (hF : (⟨L, B, base, E, E.f64, r, t⟩ : Mover 64 V).Fits N)
    (dv : V) (flip : BitVec 64 → BitVec 64) (b : BitVec 64) (n : Nat) (hb : n ≤ 1 ∨ flip b = b)
    (W : ArrWorld V) (hV : ArrValid L W) (l0 l1 : List (Cell V)) (h : Arrays L W N l0 l1)
    (hd : ∀ q < n, e.impl.N ∣ ((⟨L, B, base, E, E.f64, r, t⟩ : Mover 64 V).scalars b q (l0, l1)).1.length ∧
      e.impl.N ∣ ((⟨L, B, base, E, E.f64, r, t⟩ : Mover 64 V).scalars b q (l0, l1)).2.length)
    (hn : ∀ c ∈ l0 ++ l1, (B.bits (c r 0)).isSome = true) (hfit : l0.length + l1.length ≤ N) :
    ∃ W', (⟨L, B, base, E, E.f64, r, t⟩ : Mover 64 V).run e flip n b W = .ok (W', .unit) ∧
      Arrays L W' N ((⟨L, B, base, E, E.f64, r, t⟩ : Mover 64 V).scalars b n (l0, l1)).1
        ((⟨L, B, base, E, E.f64, r, t⟩ : Mover 64 V).scalars b n (l0, l1)).2 :=
  mover_ok (M := ⟨L, B, base, E, E.f64, r, t⟩) hF (double_vecOk c e he hcmp E) dv flip b n hb W hV l0 l1 h hd
    ⟨fun c hc => hn c (List.mem_append_left _ hc), fun c hc => hn c (List.mem_append_right _ hc)⟩ hfit

/-- C74 is false if the boundary changes: the vectors are still compared to the first boundary. Elements which are less than the first boundary
    and not less than the second one stay in the left array, while scalar code moves all of them to the right. -/
theorem C74_false_boundary (c : SV.Cfg) (e : Entry 32) (he : e ∈ SV.floatVecs c) (hcmp : SV.hasFloatCmp c e.impl.N = true) (E : FEnv)
    (L : Layout V) (B : Bits 32 V) (base : Nat → Nat) (r : Nat) (t : Cell V) (N : Nat) (hF : (⟨L, B, base, E, E.f32, r, t⟩ : Mover 32 V).Fits N)
    (dv : V) (flip : BitVec 32 → BitVec 32) (b : BitVec 32) (W : ArrWorld V) (hV : ArrValid L W) (l : List (Cell V)) (h : Arrays L W N l [])
    (hd : e.impl.N ∣ l.length) (hfit : l.length ≤ N)
    (hg : ∀ c ∈ l, ∃ x, B.bits (c r 0) = some x ∧ E.f32.ge x b = false ∧ E.f32.ge x (flip b) = true) :
    (∃ W', (⟨L, B, base, E, E.f32, r, t⟩ : Mover 32 V).run e flip 2 b W = .ok (W', .unit) ∧ Arrays L W' N l []) ∧
      (⟨L, B, base, E, E.f32, r, t⟩ : Mover 32 V).scalar (flip b) ((⟨L, B, base, E, E.f32, r, t⟩ : Mover 32 V).scalar b (l, [])) = ([], l) := by
  refine mover_stale (M := ⟨L, B, base, E, E.f32, r, t⟩) hF (float_vecOk c e he hcmp E) dv flip b W hV l h hd ?_ hfit ?_ ?_
  all_goals
    intro c hc
    obtain ⟨x, h1, h2, h3⟩ := hg c hc
    simp [Mover.goes, Mover.num, h1, FOps.rel, h2, h3]

/-- C74 is false if the arity does not divide the numbers of elements: after one time step there are more elements than before. -/
theorem C74_false_size (c : SV.Cfg) (e : Entry 32) (he : e ∈ SV.floatVecs c) (hcmp : SV.hasFloatCmp c e.impl.N = true) (E : FEnv)
    (L : Layout V) (B : Bits 32 V) (base : Nat → Nat) (r : Nat) (t : Cell V) (N : Nat) (hF : (⟨L, B, base, E, E.f32, r, t⟩ : Mover 32 V).Fits N)
    (dv : V) (flip : BitVec 32 → BitVec 32) (b : BitVec 32) (W : ArrWorld V) (hV : ArrValid L W) (l0 l1 : List (Cell V))
    (h : Arrays L W N l0 l1) (hn : ∀ s < 2, ∀ i < N, ∃ v, W.step L (.peek s (i : Nat) r 0) = .ok (W, .val v) ∧ (B.bits v).isSome = true)
    (hd : ¬ (e.impl.N ∣ l0.length ∧ e.impl.N ∣ l1.length))
    (hfit : roundUp e.impl.N l0.length + roundUp e.impl.N l1.length ≤ N) :
    ∃ W' l0' l1', (⟨L, B, base, E, E.f32, r, t⟩ : Mover 32 V).run e flip 1 b W = .ok (W', .unit) ∧ Arrays L W' N l0' l1' ∧
      l0.length + l1.length < l0'.length + l1'.length := by
  have hv := float_vecOk c e he hcmp E
  obtain ⟨W', l0', l1', h1, h2, h3⟩ := mover_sizes (M := ⟨L, B, base, E, E.f32, r, t⟩) hF hv dv flip b W hV l0 l1 h hn hfit
  refine ⟨W', l0', l1', h1, h2, ?_⟩
  rw [h3]
  have hpos := hv.pos
  have hru : ∀ n, n ≤ roundUp e.impl.N n ∧ (¬ e.impl.N ∣ n → n < roundUp e.impl.N n) := by
    intro n
    have hle : n ≤ roundUp e.impl.N n := by
      unfold roundUp
      have := Nat.div_add_mod (n + e.impl.N - 1) e.impl.N
      have := Nat.mod_lt (n + e.impl.N - 1) hpos
      have : e.impl.N * ((n + e.impl.N - 1) / e.impl.N) = (n + e.impl.N - 1) / e.impl.N * e.impl.N := Nat.mul_comm _ _
      omega
    refine ⟨hle, fun hnd => ?_⟩
    rcases Nat.lt_or_ge n (roundUp e.impl.N n) with h | h
    · exact h
    · exact absurd (show e.impl.N ∣ n by rw [← Nat.le_antisymm h hle]; exact Dvd.intro_left _ rfl) hnd
  have x0 := hru l0.length
  have x1 := hru l1.length
  by_cases d0 : e.impl.N ∣ l0.length
  · have := x1.2 fun d1 => hd ⟨d0, d1⟩
    omega
  · have := x0.2 d0
    omega

namespace Demo

/-- A struct of seven `float`s (main.cpp:872-919). -/
def particle : Layout (BitVec 32) := List.replicate 7 ⟨⟨4, true⟩, none, 0⟩

theorem particle_wf : particle.WF := by
  intro m hm
  rw [(List.mem_replicate.1 hm).2]
  simp [Member.elems]

/-- Arrays of 8208 elements are moved by their first member. -/
def mv : Mover 32 (BitVec 32) := ⟨particle, B, fun s => 4096 * (1 + 1000 * s), FEnv.demo, FEnv.demo.f32, 0, fun _ _ => 0⟩

theorem mv_fits : mv.Fits 8208 where
  wf := particle_wf
  triv := by decide
  base := fun s => ⟨1024 * (1 + 1000 * s), by simp only [mv]; omega⟩
  mem := ⟨_, rfl, rfl, by decide⟩

/-- `n` elements with the number 3 on the left, one of which is replaced by 9 if `chg` is set. -/
def fill (n : Nat) (chg : Bool) : List (ArrOp (BitVec 32)) :=
  [.new 0 8208 n (fun _ _ => 3), .new 1 8208 0 (fun _ _ => 3), .new 2 8208 0 (fun _ _ => 3), .new 3 8208 0 (fun _ _ => 3)] ++
    if chg then [.poke 0 2 0 0 9] else []

/-- The list with the change. -/
def changed (n : Nat) : List (Cell (BitVec 32)) := (List.replicate n fun _ _ => 3).set 2 (Cell.set (fun _ _ => 3) 0 0 9)

theorem filled (n : Nat) (hn : n ≤ 8208) : ∃ W, ArrValid particle W ∧ Arrays particle W 8208 (List.replicate n fun _ _ => 3) [] := by
  have hs : ArrSpec.run particle ArrSpec.start (fill n false) = some (ArrWorld.upd (ArrWorld.upd (ArrWorld.upd (ArrWorld.upd ArrSpec.start 0
      (some (8208, List.replicate n fun _ _ => 3))) 1 (some (8208, []))) 2 (some (8208, []))) 3 (some (8208, [])), [.unit, .unit, .unit, .unit]) := by
    simp [fill, ArrSpec.run, ArrSpec.step, ArrSpec.start, ArrWorld.upd, hn]
  obtain ⟨W, h1, hR⟩ := arr_run_refines particle_wf 0 _ (ArrR.init particle) hs
  obtain ⟨a0, p0, r0⟩ := hR.arr (s := 0) rfl
  obtain ⟨a1, p1, r1⟩ := hR.arr (s := 1) rfl
  obtain ⟨a2, p2, r2⟩ := hR.arr (s := 2) rfl
  obtain ⟨a3, p3, r3⟩ := hR.arr (s := 3) rfl
  exact ⟨W, ⟨_, _, _, hs, h1⟩, ListIs.of_rep particle_wf p0 r0, ListIs.of_rep particle_wf p1 r1, ⟨_, ListIs.of_rep particle_wf p2 r2⟩,
    ⟨_, ListIs.of_rep particle_wf p3 r3⟩⟩

theorem filled_changed : ∃ W, ArrValid particle W ∧ Arrays particle W 8208 (changed 16) [] := by
  have hs : ArrSpec.run particle ArrSpec.start (fill 16 true) = some (ArrWorld.upd (ArrWorld.upd (ArrWorld.upd (ArrWorld.upd (ArrWorld.upd ArrSpec.start 0
      (some (8208, List.replicate 16 fun _ _ => 3))) 1 (some (8208, []))) 2 (some (8208, []))) 3 (some (8208, []))) 0 (some (8208, changed 16)),
      [.unit, .unit, .unit, .unit, .unit]) := rfl
  obtain ⟨W, h1, hR⟩ := arr_run_refines particle_wf 0 _ (ArrR.init particle) hs
  obtain ⟨a0, p0, r0⟩ := hR.arr (s := 0) rfl
  obtain ⟨a1, p1, r1⟩ := hR.arr (s := 1) rfl
  obtain ⟨a2, p2, r2⟩ := hR.arr (s := 2) rfl
  obtain ⟨a3, p3, r3⟩ := hR.arr (s := 3) rfl
  exact ⟨W, ⟨_, _, _, hs, h1⟩, ListIs.of_rep particle_wf p0 r0, ListIs.of_rep particle_wf p1 r1, ⟨_, ListIs.of_rep particle_wf p2 r2⟩,
    ⟨_, ListIs.of_rep particle_wf p3 r3⟩⟩

theorem avx8 : ∃ e ∈ SV.floatVecs .avx, e.impl.N = 8 :=
  ⟨_, List.mem_cons_of_mem _ (List.mem_cons_of_mem _ (List.mem_cons_of_mem _ List.mem_cons_self)), rfl⟩

/-- 16 elements on AVX, vectors of 8: one element moves, 15 stay. -/
example : ∃ W e W' l0 l1, mv.run e id 1 5 W = .ok (W', .unit) ∧ Arrays particle W' 8208 l0 l1 ∧ l0.length = 15 ∧ l1.length = 1 := by
  obtain ⟨W, hV, hA⟩ := filled_changed
  obtain ⟨e, he, hn⟩ := avx8
  obtain ⟨W', h1, h2⟩ := C74_float_partial .avx e he (by rw [hn]; rfl) FEnv.demo particle B _ 0 (fun _ _ => 0) 8208 mv_fits 0 id 5 1 (.inr rfl) W hV
    (changed 16) [] hA (fun q hq => by
      obtain rfl : q = 0 := by omega
      rw [hn]
      exact ⟨⟨2, rfl⟩, ⟨0, rfl⟩⟩) (fun _ _ => rfl) (by decide)
  exact ⟨W, e, W', _, _, h1, h2, rfl, rfl⟩

/-- 16 elements with the number 3 stay on the left, though the second boundary is 2. -/
example : ∃ W e W', mv.run e (fun b => 7 - b) 2 5 W = .ok (W', .unit) ∧ Arrays particle W' 8208 (List.replicate 16 fun _ _ => 3) [] := by
  obtain ⟨W, hV, hA⟩ := filled 16 (by decide)
  obtain ⟨e, he, hn⟩ := avx8
  obtain ⟨⟨W', h1, h2⟩, -⟩ := C74_false_boundary .avx e he (by rw [hn]; rfl) FEnv.demo particle B _ 0 (fun _ _ => 0) 8208 mv_fits 0 (fun b => 7 - b) 5 W hV
    _ hA (by rw [hn]; exact ⟨2, rfl⟩) (by simp) (fun c hc => by
      rw [(List.mem_replicate.1 hc).2]
      exact ⟨3, rfl, by decide, by decide⟩)
  exact ⟨W, e, W', h1, h2⟩

theorem peekable {W : ArrWorld (BitVec 32)} (hV : ArrValid particle W) {s : Nat} {l : List (Cell (BitVec 32))} (h : ListIs particle W s 8208 l) :
    ∀ i < 8208, ∃ v, W.step particle (.peek s (i : Nat) 0 0) = .ok (W, .val v) ∧ (B.bits v).isSome = true := by
  intro i hi
  obtain ⟨a, ha, hr⟩ := listIs_rep particle_wf 0 hV h
  obtain ⟨p, hp, hr⟩ := rep_pad hr (m := 8208) (le_refl _)
  have hlt : i < p.length := by omega
  have := hr.peekAt particle_wf (List.getElem?_eq_getElem hlt) (r := 0) (k := 0) (m := ⟨⟨4, true⟩, none, 0⟩) rfl (by decide)
  refine ⟨p[i] 0 0, ?_, rfl⟩
  simp only [ArrWorld.step, ArrWorld.withA, ha, ArrWorld.ro]
  simp only at this
  have e : particle[0]? = some ⟨⟨4, true⟩, none, 0⟩ := rfl
  simp only [e]
  rw [this]

/-- 13 elements become at least 14. -/
example : ∃ W e W' l0 l1, mv.run e id 1 5 W = .ok (W', .unit) ∧ Arrays particle W' 8208 l0 l1 ∧ 13 < l0.length + l1.length := by
  obtain ⟨W, hV, hA⟩ := filled 13 (by decide)
  obtain ⟨e, he, hn⟩ := avx8
  obtain ⟨W', l0, l1, h1, h2, h3⟩ := C74_false_size .avx e he (by rw [hn]; rfl) FEnv.demo particle B _ 0 (fun _ _ => 0) 8208 mv_fits 0 id 5 W hV
    _ _ hA (fun s hs => by
      have : s = 0 ∨ s = 1 := by omega
      rcases this with rfl | rfl
      · exact peekable hV hA.left
      · exact peekable hV hA.right) (by rw [hn]; decide) (by rw [hn]; decide)
  exact ⟨W, e, W', l0, l1, h1, h2, by simpa using h3⟩

end Demo

end LFA.GK
