import Verif.Props.NBodyBench

/-
  C75: NBodyBronze (examples/performance_tests/main.cpp:1467-1605) over any number of time steps, and as a whole.
-/
set_option linter.unusedSectionVars false
namespace LFA.GK
open LFA.Props
open SV (Expr Entry FEnv Calc Reqs)

variable {V : Type} [DecidableEq V] {w : Nat}

/-- Time steps for lists in which only the first `M` elements move; the others are taken from the array which receives the results. -/
def AllPairs.uptos (P : AllPairs w V) (F : Calc w) (M : Nat) : Nat → List (Cell V) × List (Cell V) → List (Cell V) × List (Cell V)
  | 0, p => p
  | t + 1, p => P.uptos F M t (P.upto F M p.1 p.2, p.1)

section
variable {P : AllPairs w V} {e : Entry w} {F : Calc w} {Q : Reqs} {N : Nat} {d f c : Bool}

theorem bronze_run (H : P.Ok e F Q N d f c) (hs : P.slack = e.impl.N - 1) {m : Nat} (hmN : m ≤ N) :
    ∀ (t : Nat) (W : ArrWorld V) (p0 p1 : List (Cell V)), Storage P.L W 0 N m p0 → Storage P.L W 1 N m p1 →
      P.Numbers (p0.take m) → P.Numbers (p1.take m) →
      ∃ W', P.run e m t W = .ok (W', .unit) ∧ ListIs P.L W' 0 N (P.uptos F (m / e.impl.N * e.impl.N) t (p0.take m, p1.take m)).1 ∧
        ListIs P.L W' 1 N (P.uptos F (m / e.impl.N * e.impl.N) t (p0.take m, p1.take m)).2 := by
  have hpos := H.pos
  have hle := Nat.div_mul_le_self m e.impl.N
  have hb : ∀ b, b * e.impl.N + P.slack < m ↔ b < m / e.impl.N := by
    intro b
    rw [hs, ← Nat.succ_le_iff (m := b), Nat.le_div_iff_mul_le hpos, Nat.succ_mul]
    omega
  intro t
  induction t with
  | zero =>
    intro W p0 p1 h0 h1 _ _
    exact ⟨W, rfl, h0.listIs H.fits.wf, h1.listIs H.fits.wf⟩
  | succ t ih =>
    intro W p0 p1 h0 h1 n0 n1
    obtain ⟨W1, p', k1, k2, k3, k4, k5⟩ := AllPairs.step_ok H h0 h1 (by omega) hb (M := m) hle (le_refl _) hmN n0 n1
    obtain ⟨W2, k6, k7, k8⟩ := ih W1 p' p0 k2 k3 k4 n0
    rw [k5] at k7 k8
    exact ⟨W2, by simp only [AllPairs.run, k1, andThen, k6], k7, k8⟩

theorem bronze_steps (H : P.Ok e F Q N d f c) (hs : P.slack = e.impl.N - 1) (dv : V) {W : ArrWorld V} (hV : ArrValid P.L W) {m : Nat}
    {l0 l1 : List (Cell V)} (h0 : ListIs P.L W 0 N l0) (h1 : ListIs P.L W 1 N l1) (hm0 : l0.length = m) (hm1 : l1.length = m)
    (hn : ∀ s < 2, P.Filled W s m) (t : Nat) :
    ∃ W', P.run e m t W = .ok (W', .unit) ∧ ListIs P.L W' 0 N (P.uptos F (m / e.impl.N * e.impl.N) t (l0, l1)).1 ∧
      ListIs P.L W' 1 N (P.uptos F (m / e.impl.N * e.impl.N) t (l0, l1)).2 := by
  have hmN : m ≤ N := by
    obtain ⟨a, -, hr⟩ := listIs_rep H.fits.wf dv hV h0
    have := hr.fits
    omega
  obtain ⟨p0, s0, e0, n0⟩ := storage_of H dv hV h0 hm0 (hn 0 (by omega))
  obtain ⟨p1, s1, e1, n1⟩ := storage_of H dv hV h1 hm1 (hn 1 (by omega))
  rw [← e0, ← e1]
  exact bronze_run H hs hmN t W p0 p1 s0 s1 n0 n1

theorem upto_len {M : Nat} {l0 l1 : List (Cell V)} (h0 : l0.length = l1.length) : (P.upto F M l0 l1).length = l1.length := by
  simp only [AllPairs.upto, List.length_append, List.length_zipWith, List.length_take, List.length_drop]
  omega

/-- If all elements belong to whole vectors, these are the time steps for lists. -/
theorem uptos_all {M : Nat} : ∀ (t : Nat) (p : List (Cell V) × List (Cell V)), p.1.length = M → p.2.length = M → P.uptos F M t p = P.scalars F t p
  | 0, _, _, _ => rfl
  | t + 1, p, h0, h1 => by
    rw [AllPairs.uptos, AllPairs.scalars, upto_scalar (by omega) (by omega)]
    exact uptos_all t _ (by simp [AllPairs.scalar, h0, h1]) h0

/-- The others never move if both lists agree on them. -/
theorem uptos_rest {M m : Nat} (hM : M ≤ m) : ∀ (t : Nat) (p : List (Cell V) × List (Cell V)), p.1.length = m → p.2.length = m →
    p.1.drop M = p.2.drop M → (P.uptos F M t p).1.drop M = p.1.drop M ∧ (P.uptos F M t p).2.drop M = p.1.drop M ∧
      (P.uptos F M t p).1.length = m ∧ (P.uptos F M t p).2.length = m
  | 0, _, h0, h1, h => ⟨rfl, h.symm, h0, h1⟩
  | t + 1, p, h0, h1, h => by
    have hd : (P.upto F M p.1 p.2).drop M = p.2.drop M := by
      unfold AllPairs.upto
      rw [List.drop_append, List.drop_eq_nil_of_le (by simp)]
      simp only [List.length_zipWith, List.length_take, List.nil_append]
      rw [show M - min (min M p.1.length) (min M p.2.length) = 0 by omega]
      rfl
    obtain ⟨k1, k2, k3, k4⟩ := uptos_rest hM t (P.upto F M p.1 p.2, p.1) ((upto_len (by omega)).trans h1) h0 (hd.trans h.symm)
    simp only [hd] at k1 k2
    exact ⟨k1.trans h.symm, k2.trans h.symm, k3, k4⟩

end

/-- C75, NBodyBronze as a whole. More than 8192 particles are rejected. Otherwise no contract is violated, and: if the number of particles is a
    multiple of the arity, the arrays hold what scalar loops compute; if it is not, the particles behind the last whole vector never move,
    whatever the kernel and the number of time steps. -/
theorem C75_bronzeBench (c : SV.Cfg) (e : Entry 32) (he : e ∈ SV.floatVecs c) (E : FEnv) (L : Layout V) (B : Bits 32 V) (base : Nat → Nat)
    (pre inner post : List (Stmt 32))
    (hF : ∀ N ∈ [128, 256, 512, 1024, 2048, 4096, 8192],
      (⟨L, B, base, E, e.impl.N - 1, pre, inner, post⟩ : AllPairs 32 V).Fits N e.impl.N (SV.floatReqs c e.impl.N).any)
    (hk : ∀ s ∈ pre ++ (inner ++ post), s.only true true (SV.hasFloatCmp c e.impl.N) = true) (hB : ∀ v, (B.bits v).isSome = true)
    (dv : V) (gen : Nat → Cell V) (d : Cell V) (n t : Int) :
    (8192 < n → ∃ W x, (⟨L, B, base, E, e.impl.N - 1, pre, inner, post⟩ : AllPairs 32 V).bench e gen d n t = .ok (W, .threw (.outOfRange x))) ∧
    (n ≤ 8192 → ∃ N W' l0 l1, (⟨L, B, base, E, e.impl.N - 1, pre, inner, post⟩ : AllPairs 32 V).bench e gen d n t = .ok (W', .unit) ∧
      ListIs L W' 0 N l0 ∧ ListIs L W' 1 N l1 ∧ l0.length = n.toNat ∧ l1.length = n.toNat ∧
      (e.impl.N ∣ n.toNat → (l0, l1) = (⟨L, B, base, E, 0, pre, inner, post⟩ : AllPairs 32 V).scalars (SV.floatArith c e.impl.N E.f32) t.toNat
        ((List.range n.toNat).map gen, (List.range n.toNat).map gen)) ∧
      ∀ i, n.toNat / e.impl.N * e.impl.N ≤ i → i < n.toNat → l0[i]? = some (gen i) ∧ l1[i]? = some (gen i)) := by
  refine ⟨fun hn => ⟨_, _, by simp only [AllPairs.bench, capacity_none hn]; rfl⟩, fun hn => ?_⟩
  obtain ⟨N, hN, hc, hnN⟩ := capacity_some hn
  have hF' := hF N hN
  obtain ⟨W, h1, hV, h2⟩ := setUp_ok (gen := gen) (d := d) hF'.wf dv (capacities_dvd (SV.float_arity c e he) N hN).2 hnN
  obtain ⟨W', k1, k2, k3⟩ := bronze_steps (P := ⟨L, B, base, E, e.impl.N - 1, pre, inner, post⟩) (float_ok he hF' hk) rfl dv hV (m := n.toNat)
    (h2 0 (by omega)) (h2 1 (by omega)) (by simp) (by simp) (fun s hs => filled_bits hB hF'.wf dv (fun s hs p hp => by
      obtain ⟨m, m1, m2, -⟩ := hF'.mem s hs p (Demo.reads_pos hp)
      exact ⟨m, m1, m2⟩) hV (h2 s hs) hnN) t.toNat
  obtain ⟨r1, r2, r3, r4⟩ := uptos_rest (P := ⟨L, B, base, E, e.impl.N - 1, pre, inner, post⟩) (F := SV.floatArith c e.impl.N E.f32)
    (Nat.div_mul_le_self n.toNat e.impl.N) t.toNat ((List.range n.toNat).map gen, (List.range n.toNat).map gen) (by simp) (by simp) rfl
  refine ⟨N, W', _, _, ?_, k2, k3, r3, r4, fun hd => ?_, fun i hi hlt => ?_⟩
  · simp only [AllPairs.bench, hc]
    simp only at h1
    rw [h1]
    exact k1
  · rw [Nat.div_mul_cancel hd, uptos_all _ _ (by simp) (by simp)]
    have : ∀ t p, (⟨L, B, base, E, e.impl.N - 1, pre, inner, post⟩ : AllPairs 32 V).scalars (SV.floatArith c e.impl.N E.f32) t p =
        (⟨L, B, base, E, 0, pre, inner, post⟩ : AllPairs 32 V).scalars (SV.floatArith c e.impl.N E.f32) t p := by
      intro t
      induction t with
      | zero => intro p; rfl
      | succ t ih => intro p; exact ih _
    rw [this]
  · obtain ⟨q, rfl⟩ := Nat.exists_eq_add_of_le hi
    have hg : (((List.range n.toNat).map gen).drop (n.toNat / e.impl.N * e.impl.N))[q]? = some (gen (n.toNat / e.impl.N * e.impl.N + q)) := by
      rw [List.getElem?_drop, List.getElem?_map, List.getElem?_range hlt]
      rfl
    rw [← List.getElem?_drop, ← List.getElem?_drop, r1, r2]
    exact ⟨hg, hg⟩

namespace Demo

/-- NBodyBronze on AVX with 300 particles: the last four never move. -/
example (gen : Nat → Cell (BitVec 32)) (t : Int) : ∃ e ∈ SV.floatVecs .avx, ∃ N W l, (silver 7).bench e gen (fun _ _ => 0) 300 t = .ok (W, .unit) ∧
    ListIs particle W 0 N l ∧ ∀ i, 296 ≤ i → i < 300 → l[i]? = some (gen i) := by
  obtain ⟨e, he, hn⟩ := avx8
  have e7 : e.impl.N - 1 = 7 := by rw [hn]
  have h := C75_bronzeBench .avx e he FEnv.demo particle B _ _ _ _ (by
      rw [e7, any8 hn, hn]
      intro N hN
      obtain ⟨a1, a2, a3, a4, a5⟩ := silver_fits_all N hN
      exact ⟨a1, a2, a3, a4, a5⟩)
    (by intro s hs; have : ∀ s ∈ (silver 7).stmts, s.only true true (SV.hasFloatCmp .avx 8) = true := by (simp only [AllPairs.stmts, silver, nbPre, nbInner, nbPost]; decide)
        rw [hn]; exact this s hs) (fun _ => rfl) 0 gen (fun _ _ => 0) 300 t
  obtain ⟨N, W, l0, l1, k1, k2, -, -, -, -, k3⟩ := h.2 (by decide)
  rw [e7] at k1
  exact ⟨e, he, N, W, l0, k1, k2, fun i h1 h2 => (k3 i (by rw [hn]; exact h1) h2).1⟩

end Demo
end LFA.GK
