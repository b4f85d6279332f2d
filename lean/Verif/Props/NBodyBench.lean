import Verif.NBodyBench

/-
  C75: the n-body benchmarks as a whole.
-/
set_option linter.unusedSectionVars false
namespace LFA.GK
open LFA.Props
open SV (Expr Entry FEnv Calc)

variable {V : Type} [DecidableEq V] {w : Nat}

section
variable {L : Layout V} {gen : Nat → Cell V} {d : Cell V}

theorem calls_run : ∀ (ops : List (ArrOp V)) {W W' : ArrWorld V} {outs : List (ArrOut V)}, W.run L ops = .ok (W', outs) →
    (∀ o ∈ outs, ∀ x, o ≠ .threw x) → AllPairs.calls L ops W = .ok (W', .unit) := by
  intro ops
  induction ops with
  | nil => intro W W' outs h _; simp only [ArrWorld.run, Except.ok.injEq, Prod.mk.injEq] at h; rw [AllPairs.calls, h.1]
  | cons op ops ih =>
    intro W W' outs h hn
    simp only [ArrWorld.run] at h
    split at h
    · cases h
    · rename_i W1 out h1
      split at h
      · cases h
      · rename_i W2 outs' h2
        simp only [Except.ok.injEq, Prod.mk.injEq] at h
        obtain ⟨rfl, rfl⟩ := h
        rw [AllPairs.calls, h1]
        have hr := ih h2 fun o ho => hn o (List.mem_cons_of_mem _ ho)
        cases out with
        | threw x => exact absurd rfl (hn _ List.mem_cons_self x)
        | _ => exact hr

theorem bench_calls_append {ops ops' : List (ArrOp V)} : ∀ {W : ArrWorld V}, AllPairs.calls L (ops ++ ops') W =
    andThen (AllPairs.calls L ops W) fun W _ => AllPairs.calls L ops' W := by
  induction ops with
  | nil => intro W; simp only [List.nil_append, AllPairs.calls, andThen]
  | cons op ops ih =>
    intro W
    simp only [List.cons_append, AllPairs.calls]
    cases W.step L op with
    | error u => rfl
    | ok p =>
      obtain ⟨W1, o⟩ := p
      cases o <;> simp only [andThen] <;> first | rfl | exact ih

theorem fill_append (a b i : Nat) : AllPairs.fill gen (a + b) i = AllPairs.fill gen a i ++ AllPairs.fill gen b (i + a) := by
  induction a generalizing i with
  | zero => simp [AllPairs.fill]
  | succ a ih =>
    rw [Nat.succ_add]
    simp only [AllPairs.fill, List.cons_append]
    rw [ih (i + 1), show i + 1 + a = i + (a + 1) by omega]

theorem fill_spec {N : Nat} : ∀ (m i : Nat) (σ : ArrSpec.State V) (l : List (Cell V)), σ 0 = some (N, l) → σ 1 = some (N, l) → l.length + m ≤ N →
    ∃ σ' outs, ArrSpec.run L σ (AllPairs.fill gen m i) = some (σ', outs) ∧ (∀ o ∈ outs, ∀ x, o ≠ .threw x) ∧
      ∀ s < 2, σ' s = some (N, l ++ (List.range m).map fun q => gen (i + q))
  | 0, i, σ, l, h0, h1, _ => ⟨σ, [], rfl, by simp, fun s hs => by
      have : s = 0 ∨ s = 1 := by omega
      rcases this with rfl | rfl <;> simp [h0, h1]⟩
  | m + 1, i, σ, l, h0, h1, hm => by
    have hlt : l.length < N := by omega
    obtain ⟨σ', outs, k1, k2, k3⟩ := fill_spec m (i + 1) (ArrWorld.upd (ArrWorld.upd σ 0 (some (N, l ++ [gen i]))) 1 (some (N, l ++ [gen i])))
      (l ++ [gen i]) rfl rfl (by simp; omega)
    refine ⟨σ', .unit :: .unit :: outs, ?_, ?_, fun s hs => ?_⟩
    · have h1' : ArrWorld.upd σ 0 (some (N, l ++ [gen i])) 1 = some (N, l) := h1
      simp only [AllPairs.fill, ArrSpec.run, ArrSpec.step, h0, h1', hlt, if_true, k1]
    · intro o ho
      rcases List.mem_cons.1 ho with rfl | ho
      · intro x; simp
      · rcases List.mem_cons.1 ho with rfl | ho
        · intro x; simp
        · exact k2 o ho
    · rw [k3 s hs, List.range_succ_eq_map]
      simp [Function.comp_def, Nat.add_assoc, Nat.add_comm 1]

theorem setUp_spec {N n : Nat} (hN : N < 2 ^ 31) (hn : n ≤ N) :
    ∃ σ outs, ArrSpec.run L ArrSpec.start (.new 0 N 0 d :: .new 1 N 0 d :: AllPairs.fill gen n 0) = some (σ, outs) ∧
      (∀ o ∈ outs, ∀ x, o ≠ .threw x) ∧ ∀ s < 2, σ s = some (N, (List.range n).map gen) := by
  obtain ⟨σ, outs, k1, k2, k3⟩ := fill_spec (L := L) (gen := gen) n 0
    (ArrWorld.upd (ArrWorld.upd ArrSpec.start 0 (some (N, []))) 1 (some (N, []))) [] rfl rfl (by simpa using hn)
  refine ⟨σ, .unit :: .unit :: outs, ?_, ?_, fun s hs => by simpa using k3 s hs⟩
  · have hN' : N < 2147483648 := hN
    have s1 : ArrSpec.step L ArrSpec.start (.new 0 N 0 d) = some (ArrWorld.upd ArrSpec.start 0 (some (N, [])), .unit) := by
      simp [ArrSpec.step, ArrSpec.start, hN']
    have s2 : ArrSpec.step L (ArrWorld.upd ArrSpec.start 0 (some (N, []))) (.new 1 N 0 d) =
        some (ArrWorld.upd (ArrWorld.upd ArrSpec.start 0 (some (N, []))) 1 (some (N, [])), .unit) := by
      simp [ArrSpec.step, ArrSpec.start, ArrWorld.upd, hN']
    simp only [ArrSpec.run, s1, s2, k1]
  · intro o ho
    rcases List.mem_cons.1 ho with rfl | ho
    · intro x; simp
    · rcases List.mem_cons.1 ho with rfl | ho
      · intro x; simp
      · exact k2 o ho

/-- Both arrays hold all particles in order. -/
theorem setUp_ok (hL : L.WF) (dv : V) {N n : Nat} (hN : N < 2 ^ 31) (hn : n ≤ N) :
    ∃ W, AllPairs.setUp L gen d N n = .ok (W, .unit) ∧ ArrValid L W ∧ ∀ s < 2, ListIs L W s N ((List.range n).map gen) := by
  obtain ⟨σ, outs, k1, k2, k3⟩ := setUp_spec (L := L) (gen := gen) (d := d) hN hn
  obtain ⟨W, h1, hR⟩ := arr_run_refines hL dv _ (ArrR.init L) k1
  refine ⟨W, calls_run _ h1 k2, ⟨_, _, _, k1, h1⟩, fun s hs => ?_⟩
  obtain ⟨a, p, r⟩ := hR.arr (k3 s hs)
  exact ListIs.of_rep hL p r

/-- With too many particles filling the arrays ends with an exception, and both arrays are full. -/
theorem setUp_full (hL : L.WF) (dv : V) {N n : Nat} (hN : N < 2 ^ 31) (hn : N < n) :
    ∃ W, AllPairs.setUp L gen d N n = .ok (W, .threw (.outOfRange "capacity exceeded")) ∧
      ∀ s < 2, ListIs L W s N ((List.range N).map gen) := by
  obtain ⟨W, h1, ⟨ops, σ, outs, v1, v2⟩, h3⟩ := setUp_ok (gen := gen) (d := d) hL dv hN (le_refl N)
  obtain ⟨m, rfl⟩ : ∃ m, n = N + (m + 1) := ⟨n - N - 1, by omega⟩
  obtain ⟨W', e1, hR⟩ := arr_run_refines hL dv _ (ArrR.init L) v1
  obtain rfl : W' = W := by rw [e1] at v2; simpa using v2
  obtain ⟨a, ha, hr⟩ := listIs_rep hL dv ⟨ops, σ, outs, v1, v2⟩ (h3 0 (by omega))
  refine ⟨W', ?_, h3⟩
  have hs : W'.step L (.push 0 (gen (0 + N))) = .ok (W', .threw (.outOfRange "capacity exceeded")) := by
    have hl := hr.len
    have hc := hr.cap
    simp at hl
    have hge : a.n ≥ a.N := by omega
    simp only [ArrWorld.step, ArrWorld.withA, ha, SArr.push, if_pos hge, ArrWorld.modify]
    have hu : ArrWorld.upd W'.a 0 (some a) = W'.a := by
      funext j
      simp only [ArrWorld.upd]
      split
      · rename_i hj; rw [hj, ha]
      · rfl
    rw [hu]
  simp only [AllPairs.setUp] at h1 ⊢
  rw [fill_append, ← List.cons_append, ← List.cons_append, bench_calls_append, h1]
  simp only [andThen, AllPairs.fill, AllPairs.calls, hs]

theorem capacity_some {n : Int} (hn : n ≤ 8192) : ∃ N ∈ AllPairs.capacities, AllPairs.capacity n AllPairs.capacities = some N ∧ n.toNat ≤ N := by
  simp only [AllPairs.capacities, AllPairs.capacity]
  split_ifs <;> simp <;> omega

theorem capacity_none {n : Int} (hn : 8192 < n) : AllPairs.capacity n AllPairs.capacities = none := by
  simp only [AllPairs.capacities, AllPairs.capacity]
  split_ifs <;> first | rfl | omega

/-- Structs behind the last particle hold numbers, as all values of the members are numbers. -/
theorem filled_bits {P : AllPairs w V} (hB : ∀ v, (P.B.bits v).isSome = true) (hL : P.L.WF) (dv : V)
    (hp : ∀ s ∈ P.stmts, ∀ p ∈ s.reads, ∃ m, P.L[p.1]? = some m ∧ p.2 < m.elems) {W : ArrWorld V} (hV : ArrValid P.L W) {s N M : Nat}
    {l : List (Cell V)} (h : ListIs P.L W s N l) (hM : M ≤ N) : P.Filled W s M := by
  intro i hi st hst p hpp
  obtain ⟨a, ha, hr⟩ := listIs_rep hL dv hV h
  obtain ⟨q, hq, hr⟩ := rep_pad hr (m := N) (le_refl _)
  have hlt : i < q.length := by omega
  obtain ⟨m, hm1, hm2⟩ := hp st hst p hpp
  have := hr.peekAt hL (List.getElem?_eq_getElem hlt) hm1 hm2
  refine ⟨q[i] p.1 p.2, ?_, hB _⟩
  simp only [ArrWorld.step, ArrWorld.withA, ha, ArrWorld.ro]
  simp only at this
  simp only [hm1]
  rw [this]

theorem roundUp_le {A n N : Nat} (hA : 0 < A) (hd : A ∣ N) (hn : n ≤ N) : roundUp A n ≤ N := by
  obtain ⟨q, rfl⟩ := hd
  have h : (n + A - 1) / A ≤ q := by
    refine Nat.lt_succ_iff.1 ((Nat.div_lt_iff_lt_mul hA).2 ?_)
    rw [Nat.succ_mul, Nat.mul_comm q]
    omega
  rw [roundUp, Nat.mul_comm A]
  exact Nat.mul_le_mul_right _ h

theorem capacities_dvd {A : Nat} (hA : A ∈ [1, 2, 4, 8, 16, 32]) : ∀ N ∈ AllPairs.capacities, A ∣ N ∧ N < 2 ^ 31 := by
  revert A
  decide

end

/-- C75: the whole benchmark (NBodySilver, NBodyGold). Whatever the number of particles and of time steps: with more than 8192 particles it ends
    with an exception, otherwise it neither throws nor violates a contract, and at the end both arrays hold what scalar loops over the list of
    particles compute with the arithmetic of the target. -/
theorem C75_bench (c : SV.Cfg) (e : Entry 32) (he : e ∈ SV.floatVecs c) (E : FEnv) (L : Layout V) (B : Bits 32 V) (base : Nat → Nat)
    (pre inner post : List (Stmt 32))
    (hF : ∀ N ∈ [128, 256, 512, 1024, 2048, 4096, 8192],
      (⟨L, B, base, E, 0, pre, inner, post⟩ : AllPairs 32 V).Fits N e.impl.N (SV.floatReqs c e.impl.N).any)
    (hk : ∀ s ∈ pre ++ (inner ++ post), s.only true true (SV.hasFloatCmp c e.impl.N) = true) (hB : ∀ v, (B.bits v).isSome = true)
    (dv : V) (gen : Nat → Cell V) (d : Cell V) (n t : Int) :
    (8192 < n → ∃ W x, (⟨L, B, base, E, 0, pre, inner, post⟩ : AllPairs 32 V).bench e gen d n t = .ok (W, .threw (.outOfRange x))) ∧
    (n ≤ 8192 → ∃ N W', n.toNat ≤ N ∧ (⟨L, B, base, E, 0, pre, inner, post⟩ : AllPairs 32 V).bench e gen d n t = .ok (W', .unit) ∧
      ListIs L W' 0 N ((⟨L, B, base, E, 0, pre, inner, post⟩ : AllPairs 32 V).scalars (SV.floatArith c e.impl.N E.f32) t.toNat
        ((List.range n.toNat).map gen, (List.range n.toNat).map gen)).1 ∧
      ListIs L W' 1 N ((⟨L, B, base, E, 0, pre, inner, post⟩ : AllPairs 32 V).scalars (SV.floatArith c e.impl.N E.f32) t.toNat
        ((List.range n.toNat).map gen, (List.range n.toNat).map gen)).2) := by
  refine ⟨fun hn => ⟨_, _, by simp only [AllPairs.bench, capacity_none hn]; rfl⟩, fun hn => ?_⟩
  obtain ⟨N, hN, hc, hnN⟩ := capacity_some hn
  have hA := SV.float_arity c e he
  obtain ⟨hd, hlt⟩ := capacities_dvd hA N hN
  have hF' := hF N hN
  obtain ⟨W, h1, hV, h2⟩ := setUp_ok (gen := gen) (d := d) hF'.wf dv hlt hnN
  have hru : roundUp e.impl.N n.toNat ≤ N := roundUp_le (by simp at hA; omega) hd hnN
  obtain ⟨W', k1, k2, k3⟩ := C75_float c e he E L B base pre inner post N hF' hk dv W hV n.toNat _ _ (h2 0 (by omega)) (h2 1 (by omega))
    (by simp) (by simp) hru (fun s hs => filled_bits hB hF'.wf dv (fun s hs p hp => by
      obtain ⟨m, m1, m2, -⟩ := hF'.mem s hs p (Demo.reads_pos hp)
      exact ⟨m, m1, m2⟩) hV (h2 s hs) hru) t.toNat
  refine ⟨N, W', hnN, ?_, k2, k3⟩
  simp only [AllPairs.bench, hc]
  simp only at h1
  rw [h1]
  exact k1

/-- C75: NBodyIron as a whole. The capacity of its arrays is fixed, so that filling them fails with too many particles. -/
theorem C75_ironBench (P : AllPairs w V) (F : Calc w) (hL : P.L.WF) (dv : V) (htriv : ∀ m ∈ P.L, m.ty.triv = true)
    (hmem : ∀ s ∈ P.pre ++ (P.inner ++ P.post), ∀ p ∈ s.pos, ∃ m, P.L[p.1]? = some m ∧ p.2 < m.elems) (gen : Nat → Cell V) (d : Cell V)
    (n t : Int) :
    (8192 < n → ∃ W x, P.ironBench F gen d n t = .ok (W, .threw (.outOfRange x))) ∧
    (n ≤ 8192 → ∃ W', P.ironBench F gen d n t = .ok (W', .unit) ∧
      ListIs P.L W' 0 8192 (P.scalars F (t / 10).toNat ((List.range n.toNat).map gen, (List.range n.toNat).map gen)).1 ∧
      ListIs P.L W' 1 8192 (P.scalars F (t / 10).toNat ((List.range n.toNat).map gen, (List.range n.toNat).map gen)).2) := by
  have hb : ∀ C : Nat, (C : Int) = 8192 → P.ironBench F gen d n t = andThen (AllPairs.setUp P.L gen d C n.toNat) fun W _ =>
      match (P.iron F n.toNat (t.tdiv 10).toNat).exec (fun W op => ArrWorld.step P.L W op) W with
      | .error u => .error u
      | .ok (W, _) => .ok (W, .unit) := by
    intro C hC
    obtain rfl : C = 8192 := by omega
    rfl
  refine ⟨fun hn => ?_, fun hn => ?_⟩
  · obtain ⟨W, h1, -⟩ := setUp_full (gen := gen) (d := d) hL dv (N := 8192) (n := n.toNat) (by norm_num) (by omega)
    refine ⟨W, "capacity exceeded", ?_⟩
    rw [hb 8192 rfl, h1]
    rfl
  · obtain ⟨W, h1, hV, h2⟩ := setUp_ok (gen := gen) (d := d) hL dv (N := 8192) (n := n.toNat) (by norm_num) (by omega)
    have ht : (t.tdiv 10).toNat = (t / 10).toNat := by
      rcases Int.le_total 0 t with h | h
      · rw [Int.tdiv_eq_ediv_of_nonneg h]
      · have h1 : t.tdiv 10 ≤ 0 := by
          obtain ⟨k, rfl⟩ : ∃ k, t = -k := ⟨-t, by omega⟩
          rw [Int.neg_tdiv, Int.tdiv_eq_ediv_of_nonneg (by omega)]
          omega
        have h2 : t / 10 ≤ 0 := by omega
        rw [Int.toNat_of_nonpos h1, Int.toNat_of_nonpos h2]
    obtain ⟨W', k1, k2, k3⟩ := C75_iron P F hL dv htriv hmem W hV 8192 n.toNat _ _ (h2 0 (by omega)) (h2 1 (by omega)) (by simp) (by simp)
      (t / 10).toNat
    refine ⟨W', ?_, k2, k3⟩
    rw [hb 8192 rfl, h1]
    simp only [andThen, ht]
    rw [k1]

namespace Demo

/-- All capacities of the benchmark suit a kernel on `Particle`s. -/
theorem silver_fits_all : ∀ N ∈ [128, 256, 512, 1024, 2048, 4096, 8192], (silver 0).Fits N 8 1 := by
  intro N hN
  have h4 : 4 ∣ N := by revert N; decide
  refine ⟨(silver_fits 0).wf, (silver_fits 0).triv, fun s hs p hp => ?_, (silver_fits 0).base, (silver_fits 0).own⟩
  obtain ⟨m, k1, k2, k3, -⟩ := (silver_fits 0).mem s hs p hp
  exact ⟨m, k1, k2, k3, Dvd.dvd.mul_right h4 _, fun _ _ _ _ => Nat.one_dvd _⟩

/-- NBodySilver on AVX with any arguments. -/
example (gen : Nat → Cell (BitVec 32)) (t : Int) : ∃ e ∈ SV.floatVecs .avx, (∃ W, (silver 0).bench e gen (fun _ _ => 0) 8193 t = .ok (W, .threw AllPairs.tooMany)) ∧
    ∃ N W l, (silver 0).bench e gen (fun _ _ => 0) 300 t = .ok (W, .unit) ∧ ListIs particle W 0 N l ∧ l.length = 300 := by
  obtain ⟨e, he, hn⟩ := avx8
  have h := C75_bench .avx e he FEnv.demo particle B _ _ _ _ (by rw [any8 hn, hn]; exact silver_fits_all)
    (by intro s hs; have : ∀ s ∈ (silver 0).stmts, s.only true true (SV.hasFloatCmp .avx 8) = true := by (simp only [AllPairs.stmts, silver, nbPre, nbInner, nbPost]; decide)
        rw [hn]; exact this s hs) (fun _ => rfl) 0 gen (fun _ _ => 0)
  refine ⟨e, he, ⟨ArrWorld.init, rfl⟩, ?_⟩
  obtain ⟨N, W, -, k1, k2, -⟩ := (h 300 t).2 (by decide)
  exact ⟨N, W, _, k1, k2, (scalars_length (silver 0) _ t.toNat _ (by simp) (by simp)).1⟩

/-- NBodyIron with any arguments. -/
example (gen : Nat → Cell (BitVec 32)) (F : Calc 32) (t : Int) : (∃ W x, (silver 0).ironBench F gen (fun _ _ => 0) 8193 t = .ok (W, .threw (.outOfRange x))) ∧
    ∃ W l, (silver 0).ironBench F gen (fun _ _ => 0) 300 t = .ok (W, .unit) ∧ ListIs particle W 0 8192 l ∧ l.length = 300 := by
  have h := C75_ironBench (silver 0) F particle_wf 0 (silver_fits 0).triv
    (fun s hs p hp => by obtain ⟨m, k1, k2, -⟩ := (silver_fits 0).mem s hs p hp; exact ⟨m, k1, k2⟩) gen (fun _ _ => 0)
  obtain ⟨W, k1, k2, -⟩ := (h 300 t).2 (by decide)
  exact ⟨(h 8193 t).1 (by decide), W, _, k1, k2, (scalars_length (silver 0) F _ _ (by simp) (by simp)).1⟩

end Demo
end LFA.GK
