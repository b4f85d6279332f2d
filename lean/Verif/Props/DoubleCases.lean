import Verif.Props.Prefilter

/-
  C74 and C77: what is false or decided for `float` is so for `double`.
-/
set_option linter.unusedSectionVars false
namespace LFA.GK
open LFA.Props
open SV (Expr Entry FEnv FOps Rel)

variable {V : Type} [DecidableEq V]

/-- `C74_false_boundary` for `double`. -/
theorem C74_false_boundary_double (c : SV.Cfg) (e : Entry 64) (he : e ∈ SV.doubleVecs c) (hcmp : SV.hasDoubleCmp c e.impl.N = true) (E : FEnv)
    (L : Layout V) (B : Bits 64 V) (base : Nat → Nat) (r : Nat) (t : Cell V) (N : Nat) (hF : (⟨L, B, base, E, E.f64, r, t⟩ : Mover 64 V).Fits N)
    (dv : V) (flip : BitVec 64 → BitVec 64) (b : BitVec 64) (W : ArrWorld V) (hV : ArrValid L W) (l : List (Cell V)) (h : Arrays L W N l [])
    (hd : e.impl.N ∣ l.length) (hfit : l.length ≤ N)
    (hg : ∀ c ∈ l, ∃ x, B.bits (c r 0) = some x ∧ E.f64.ge x b = false ∧ E.f64.ge x (flip b) = true) :
    (∃ W', (⟨L, B, base, E, E.f64, r, t⟩ : Mover 64 V).run e flip 2 b W = .ok (W', .unit) ∧ Arrays L W' N l []) ∧
      (⟨L, B, base, E, E.f64, r, t⟩ : Mover 64 V).scalar (flip b) ((⟨L, B, base, E, E.f64, r, t⟩ : Mover 64 V).scalar b (l, [])) = ([], l) := by
  refine mover_stale (M := ⟨L, B, base, E, E.f64, r, t⟩) hF (double_vecOk c e he hcmp E) dv flip b W hV l h hd ?_ hfit ?_ ?_
  all_goals
    intro c hc
    obtain ⟨x, h1, h2, h3⟩ := hg c hc
    simp [Mover.goes, Mover.num, h1, FOps.rel, h2, h3]

/-- `C74_false_size` for `double`. -/
theorem C74_false_size_double (c : SV.Cfg) (e : Entry 64) (he : e ∈ SV.doubleVecs c) (hcmp : SV.hasDoubleCmp c e.impl.N = true) (E : FEnv)
    (L : Layout V) (B : Bits 64 V) (base : Nat → Nat) (r : Nat) (t : Cell V) (N : Nat) (hF : (⟨L, B, base, E, E.f64, r, t⟩ : Mover 64 V).Fits N)
    (dv : V) (flip : BitVec 64 → BitVec 64) (b : BitVec 64) (W : ArrWorld V) (hV : ArrValid L W) (l0 l1 : List (Cell V))
    (h : Arrays L W N l0 l1) (hn : ∀ s < 2, ∀ i < N, ∃ v, W.step L (.peek s (i : Nat) r 0) = .ok (W, .val v) ∧ (B.bits v).isSome = true)
    (hd : ¬ (e.impl.N ∣ l0.length ∧ e.impl.N ∣ l1.length))
    (hfit : roundUp e.impl.N l0.length + roundUp e.impl.N l1.length ≤ N) :
    ∃ W' l0' l1', (⟨L, B, base, E, E.f64, r, t⟩ : Mover 64 V).run e flip 1 b W = .ok (W', .unit) ∧ Arrays L W' N l0' l1' ∧
      l0.length + l1.length < l0'.length + l1'.length := by
  have hv := double_vecOk c e he hcmp E
  obtain ⟨W', l0', l1', h1, h2, h3⟩ := mover_sizes (M := ⟨L, B, base, E, E.f64, r, t⟩) hF hv dv flip b W hV l0 l1 h hn hfit
  refine ⟨W', l0', l1', h1, h2, ?_⟩
  rw [h3]
  have hpos := hv.pos
  have hru : ∀ n, n ≤ roundUp e.impl.N n ∧ (¬ e.impl.N ∣ n → n < roundUp e.impl.N n) := by
    intro n
    have hle : n ≤ roundUp e.impl.N n := by
      unfold roundUp
      have := Nat.div_add_mod (n + e.impl.N - 1) e.impl.N
      have := Nat.mod_lt (n + e.impl.N - 1) hpos
      have : e.impl.N * ((n + e.impl.N - 1) / e.impl.N) = (n + e.impl.N - 1) / e.impl.N * e.impl.N := Nat.mul_comm _ _
      omega
    refine ⟨hle, fun hnd => ?_⟩
    rcases Nat.lt_or_ge n (roundUp e.impl.N n) with h | h
    · exact h
    · exact absurd (show e.impl.N ∣ n by rw [← Nat.le_antisymm h hle]; exact Dvd.intro_left _ rfl) hnd
  have x0 := hru l0.length
  have x1 := hru l1.length
  by_cases d0 : e.impl.N ∣ l0.length
  · have := x1.2 fun d1 => hd ⟨d0, d1⟩
    omega
  · have := x0.2 d0
    omega

/-- `C77_false_size` for `double`. -/
theorem C77_false_size_double (c : SV.Cfg) (e : Entry 64) (he : e ∈ SV.doubleVecs c) (E : FEnv) (L : Layout V) (hL : L.WF) (B : Bits 64 V) (base : Nat → Nat)
    (test : Expr 64) (src : Nat → Of) (rel : Rel) (thr : BitVec 64) (bumps : List (Bump 64)) (hb : bumps ≠ []) (dv : V) (n : Nat) (W : ArrWorld V)
    (hV : ArrValid L W) (s N : Nat) (l : List (Cell V)) (h : ListIs L W s N l) (hd : ¬ e.impl.N ∣ l.length) (f : Nat) :
    ∃ u, (⟨L, B, base, E, E.f64, test, src, rel, thr, bumps⟩ : Prefilter 64 V).run e s f (n + 1) W = .error u := by
  obtain ⟨a, ha, hR⟩ := listIs_rep hL dv hV h
  refine Prefilter.run_never ?_ hd hb ⟨a, ha, hR.len⟩ f n
  have : ∀ n ∈ [1, 2, 4, 8, 16, 32], n ∣ 2 ^ 64 := by decide
  exact this _ (SV.double_arity c e he)

/-- `C77_float_iff` for `double`. -/
theorem C77_double_iff (c : SV.Cfg) (e : Entry 64) (he : e ∈ SV.doubleVecs c) (hcmp : SV.hasDoubleCmp c e.impl.N = true) (E : FEnv)
    (L : Layout V) (B : Bits 64 V) (base : Nat → Nat) (test : Expr 64) (src : Nat → Of) (rel : Rel) (thr : BitVec 64) (bumps : List (Bump 64))
    (hb : bumps ≠ []) (N : Nat)
    (hF : (⟨L, B, base, E, E.f64, test, src, rel, thr, bumps⟩ : Prefilter 64 V).Fits N) (dv : V) (n : Nat) (W : ArrWorld V) (hV : ArrValid L W)
    (s : Nat) (l : List (Cell V)) (h : ListIs L W s N l) (hn : (⟨L, B, base, E, E.f64, test, src, rel, thr, bumps⟩ : Prefilter 64 V).Numbers l) :
    (∃ f W' o, (⟨L, B, base, E, E.f64, test, src, rel, thr, bumps⟩ : Prefilter 64 V).run e s f (n + 1) W = .ok (W', o)) ↔ e.impl.N ∣ l.length := by
  constructor
  · rintro ⟨f, W', o, h1⟩
    by_contra hd
    obtain ⟨u, hu⟩ := C77_false_size_double c e he E L hF.wf B base test src rel thr bumps hb dv n W hV s N l h hd f
    rw [hu] at h1
    cases h1
  · intro hd
    obtain ⟨W', h1, -⟩ := C77_double_partial c e he hcmp E L B base test src rel thr bumps N hF dv (n + 1) W hV s l h hn hd l.length (le_refl _)
    exact ⟨_, W', _, h1⟩

namespace Demo

/-- struct { double pos; double vel; } -/
def doubles : Layout (BitVec 64) := List.replicate 2 ⟨⟨8, true⟩, none, 0⟩

theorem doubles_wf : doubles.WF := by
  intro m hm
  rw [(List.mem_replicate.1 hm).2]
  simp [Member.elems]

def B64 : Bits 64 (BitVec 64) := ⟨id, some, fun _ => rfl⟩

/-- `n` elements of 3. -/
theorem some_doubles (n : Nat) (hn : n ≤ 8208) : ∃ W, ArrValid doubles W ∧ ListIs doubles W 0 8208 (List.replicate n fun _ _ => 3) := by
  have hs : ArrSpec.run doubles ArrSpec.start [.new 0 8208 n (fun _ _ => 3)] =
      some (ArrWorld.upd ArrSpec.start 0 (some (8208, List.replicate n fun _ _ => 3)), [.unit]) := by
    simp [ArrSpec.run, ArrSpec.step, ArrSpec.start, hn]
  obtain ⟨W, h1, hR⟩ := arr_run_refines doubles_wf 0 _ (ArrR.init doubles) hs
  obtain ⟨a, p, r⟩ := hR.arr (s := 0) rfl
  exact ⟨W, ⟨_, _, _, hs, h1⟩, ListIs.of_rep doubles_wf p r⟩

theorem avx4d : ∃ e ∈ SV.doubleVecs .avx, e.impl.N = 4 :=
  ⟨_, List.mem_cons_of_mem _ (List.mem_cons_of_mem _ List.mem_cons_self), rfl⟩

/-- Thirteen elements on AVX: the filter with vectors of four `double`s never ends well. -/
example (f : Nat) : ∃ W, ∃ e ∈ SV.doubleVecs .avx, ∃ u, (⟨doubles, B64, fun _ => 4096, FEnv.demo, FEnv.demo.f64, .sub (.var 0) (.var 1),
    fun v => ⟨v == 0, 0⟩, .lt, 7, [⟨1, .add (.var 0) (.var 1), fun v => ⟨v == 0, 1⟩⟩]⟩ : Prefilter 64 (BitVec 64)).run e 0 f 1 W = .error u := by
  obtain ⟨W, hV, h⟩ := some_doubles 13 (by decide)
  obtain ⟨e, he, hn⟩ := avx4d
  exact ⟨W, e, he, C77_false_size_double .avx e he FEnv.demo doubles doubles_wf B64 _ _ _ _ _ _ (by simp) 0 0 W hV 0 8208 _ h
    (by rw [hn]; decide) f⟩

end Demo

end LFA.GK
