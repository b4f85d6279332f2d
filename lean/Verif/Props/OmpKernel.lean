/-
  C64: vectorised kernels on grids, run by several OpenMP threads.
-/
import Verif.OmpKernelProof
set_option linter.unusedSectionVars false
namespace LFA.GK
open SV (Expr Entry FEnv Mem Writes FOps Transfers Reqs Faithful lane)
open Thr (Loc Ref InGrid ValueIs InA valA inA_iff)

variable {V : Type} [DecidableEq V] {C : Cfg V} {dv : V} {w : Nat}

theorem share_some {t : Peel.CTy} {N : Nat} {b : Box} {pc : List (Nat × Int)} {stop : Int} (h : Peel.peel t N b.x0 b.x1 = some (pc, stop))
    (zs : List Int) : share t N b zs = some (boxCalls pc (b.slices zs)) := by
  simp only [share, h, Option.map_some]; rfl

theorem team_eq {t : Peel.CTy} {e1 e : Entry w} {b : Box} {pc : List (Nat × Int)} {stop : Int}
    (h : Peel.peel t e.impl.N b.x0 b.x1 = some (pc, stop)) (zs : Nat → List Int) (hp : Heap V) :
    team t e1 e b zs hp = ⟨fun i => ⟨boxCalls pc (b.slices (zs i)), .idle⟩, hp⟩ := by
  simp only [team, share_some h, Option.getD_some]

/-- What holds for functors which are run by several threads. -/
structure Parallel (C : Cfg V) (dv : V) (B : Bits w V) (base : Nat → Nat) (E : FEnv) (K : Stencil w) (t : Peel.CTy) (e1 e : Entry w) (b : Box)
    (n : Nat) (zs : Nat → List Int) (W : World V) (s o : Nat) (es et : Ext) (σ' : Loc → V) : Prop where
  /-- When all threads have finished, all values are as they should be, however the threads took turns. -/
  values : ∀ sched r, updatePar C B base E K t e1 e b n zs sched W s o = some r → Yields C dv W σ' r
  /-- Threads can always finish. -/
  finishes : ∀ sched, ∃ sched' r, updatePar C B base E K t e1 e b n zs (sched ++ sched') W s o = some r
  /-- There are no data races. -/
  no_race : ∀ ids idt, Has C W s es ids → Has C W o et idt → ∀ sched, ∃ S,
    exec ⟨C.L, B, base, E⟩ K ⟨es, et, ids, idt⟩ e1 e sched (team t e1 e b zs W.h) = some S ∧
    ∀ i i', i ≠ i' → ∀ p p', (S.threads i).next ⟨C.L, B, base, E⟩ K ⟨es, et, ids, idt⟩ = some p →
      (S.threads i').next ⟨C.L, B, base, E⟩ K ⟨es, et, ids, idt⟩ = some p' → ¬ p.Conflict p'

theorem updatePar_eq (B : Bits w V) (base : Nat → Nat) (E : FEnv) {K : Stencil w} {e1 e : Entry w} {s o : Nat} {b : Box} {t : Peel.CTy}
    {ds dt es et : Ext} (hes : selectSizes C.tr ds = .ok es) (het : selectSizes C.tr dt = .ok et) (hsym : C.asym = true ∨ ds = dt)
    {W : World V} {gs gt : Grid} {ids idt : Nat} (i1 : W.g s = some gs) (i2 : gs.dim = ds) (i3 : gs.data = some ids)
    (j1 : W.g o = some gt) (j2 : gt.dim = dt) (j3 : gt.data = some idt) (n : Nat) (zs : Nat → List Int) (sched : List Nat) :
    updatePar C B base E K t e1 e b n zs sched W s o =
      match parallel ⟨C.L, B, base, E⟩ K ⟨es, et, ids, idt⟩ t e1 e b n zs sched W.h with
      | some (true, h') => some (.ok (⟨h', W.g⟩, .unit))
      | some (false, _) => none
      | none => some (.error .oob) := by
  simp only [updatePar, i1, j1, Grid.dualCallback, i2, j2, hes, het, i3, j3, Option.getD_some]
  by_cases ha : C.asym = true
  · rw [if_pos ha]
    cases parallel ⟨C.L, B, base, E⟩ K ⟨es, et, ids, idt⟩ t e1 e b n zs sched W.h with
    | none => rfl
    | some r => obtain ⟨fin, h'⟩ := r; cases fin <;> rfl
  · rw [if_neg ha]
    have : ds = dt := hsym.resolve_left ha
    subst this
    rw [hes] at het; cases het
    simp only [ne_eq, not_true_eq_false, or_self, if_false]
    cases parallel ⟨C.L, B, base, E⟩ K ⟨es, es, ids, idt⟩ t e1 e b n zs sched W.h with
    | none => rfl
    | some r => obtain ⟨fin, h'⟩ := r; cases fin <;> rfl

theorem parallel_ok (hL : C.L.WF) (B : Bits w V) (base : Nat → Nat) (E : FEnv) {K : Stencil w} {e1 e : Entry w} {F : FOps w}
    {Q1 Q : Reqs} {d f c : Bool} (H : Hardware E K e1 e F Q1 Q d f c) {s o : Nat} {b : Box} (hsafe : K.ParSafe s o) (t : Peel.CTy)
    {xe : Int} (hpeel : Runs t e.impl.N b.x0 b.x1 xe) {ds dt es et : Ext} (hes : selectSizes C.tr ds = .ok es)
    (het : selectSizes C.tr dt = .ok et) (hsym : C.asym = true ∨ ds = dt)
    (hA : ∀ ids idt, K.Accesses C base ⟨es, et, ids, idt⟩ b e.impl.N Q1 Q) {n : Nat} {zs : Nat → List Int} (hz : Splits b n zs)
    {W : World V} (hV : Valid C dv W) (hds : DimsAre C W s ds) (hdt : DimsAre C W o dt) (hns : ds ≠ ⟨0, 0, 0⟩) (hnt : dt ≠ ⟨0, 0, 0⟩)
    {σ : Loc → V} (hσ : ∀ l, InGrid C W l → ValueIs C W l (σ l)) (hin : K.Inside B s o { b with x1 := xe } (InGrid C W) σ) :
    Parallel C dv B base E K t e1 e b n zs W s o es et (K.apply B F s o { b with x1 := xe } σ) := by
  obtain ⟨a, hR⟩ := hV.refines hL
  obtain ⟨ids, gs, i1, i2, i3, i4⟩ := has_of_dims hR hds hns hes
  obtain ⟨idt, gt, j1, j2, j3, j4⟩ := has_of_dims hR hdt hnt het
  have hva : ∀ l, InA C a l → valA dv a l = σ l := fun l hl =>
    valueIs_unique (valA_valueIs hL hR hl) (hσ l ((inA_iff hR l).1 hl))
  have hin' : K.Inside B s o { b with x1 := xe } (InA C a) (valA dv a) := fun x y z hb => by
    obtain ⟨k1, k2⟩ := hin x y z hb
    refine ⟨(inA_iff hR _).2 k1, fun j hj => ?_⟩
    have := (inA_iff hR _).2 (k2 j hj).1
    exact ⟨this, by rw [hva _ this]; exact (k2 j hj).2⟩
  obtain ⟨pc, stop, hp, hv, hc⟩ := hpeel
  have hst := fun ids idt => start (e1 := e1) (F := F) hz hsafe hv hc (hA ids idt) hV hR hin'
  have hpar : ∀ sched, parallel ⟨C.L, B, base, E⟩ K ⟨es, et, ids, idt⟩ t e1 e b n zs sched W.h =
      (exec ⟨C.L, B, base, E⟩ K ⟨es, et, ids, idt⟩ e1 e sched ⟨fun i => ⟨boxCalls pc (b.slices (zs i)), .idle⟩, W.h⟩).map
        fun S => (S.done n, S.h) := by
    intro sched
    rw [parallel, hp, Option.bind_some, team_eq hp]
  refine ⟨fun sched r hr => ?_, fun sched => ?_, fun ids idt hids hidt sched => ?_⟩
  · obtain ⟨hW, I⟩ := hst ids idt
    obtain ⟨S', a', k1, I'⟩ := I.exec hL H hW (fun _ => i4) (fun _ => j4) sched
    rw [updatePar_eq B base E hes het hsym i1 i2 i3 j1 j2 j3, hpar, k1, Option.map_some] at hr
    cases hd : S'.done n with
    | false => rw [hd] at hr; cases hr
    | true =>
      rw [hd] at hr
      simp only [Option.some.injEq] at hr
      refine ⟨⟨S'.h, W.g⟩, hr.symm, I'.valid, dimsAre_same rfl, fun l hl => ?_⟩
      have hl' := (inA_iff hR l).2 hl
      have hval := valA_valueIs (dv := dv) hL I'.rel ((I'.inside l).2 hl')
      have hdone : ∀ i, ∀ p ∈ cells (boxCalls pc (b.slices (zs i))), valA dv a' (K.dstLoc o p.1 p.2.1 p.2.2) =
          B.val (K.code.scalar F fun j => (B.bits (valA dv a (K.srcLoc s o j p.1 p.2.1 p.2.2))).getD 0) := by
        intro i p hp
        have hi : i < n := by
          rw [boxCalls_part b hv, Box.mem_part] at hp
          exact (hz.range hp.2.2.2.2).1
        refine (I'.thr i).done ?_ p hp
        simp only [Team.done, List.all_eq_true, List.mem_range] at hd
        exact hd i hi
      have hcell : ∀ p : Int × Int × Int, Box.Has { b with x1 := xe } p.1 p.2.1 p.2.2 ↔ ∃ i, p ∈ cells (boxCalls pc (b.slices (zs i))) := by
        intro p
        simp only [boxCalls_part b hv, Box.mem_part, Box.Has]
        constructor
        · intro h
          obtain ⟨i, -, hi⟩ := (hz.all p.2.2).2 ⟨h.2.2.2.2.1, h.2.2.2.2.2⟩
          exact ⟨i, h.1, h.2.1, h.2.2.1, h.2.2.2.1, hi⟩
        · rintro ⟨i, h1, h2, h3, h4, h5⟩
          have := hz.range h5
          exact ⟨h1, h2, h3, h4, this.2.1, this.2.2⟩
      rw [← apply_congr hin' hva l hl']
      have : K.apply B F s o { b with x1 := xe } (valA dv a) l = valA dv a' l := by
        unfold Stencil.apply
        split
        · rename_i hb
          obtain ⟨i, hi⟩ := (hcell (l.x - K.dst.X, l.y - K.dst.Y, l.z - K.dst.Z)).1 hb.2.2.2
          have := hdone i _ hi
          have el : K.dstLoc o (l.x - K.dst.X) (l.y - K.dst.Y) (l.z - K.dst.Z) = l := by
            obtain ⟨ls, lx, ly, lz, lr, lk⟩ := l
            simp only at hb
            simp only [Stencil.dstLoc, at', Loc.mk.injEq]
            omega
          simp only [el] at this
          rw [this]; rfl
        · rename_i hb
          refine (I'.rest l hl' fun i p hp he => hb ?_).symm
          have := (hcell p).2 ⟨i, hp⟩
          subst he
          refine ⟨rfl, rfl, rfl, ?_⟩
          simpa [Stencil.dstLoc, at'] using this
      rw [this]; exact hval
  · obtain ⟨hW, I⟩ := hst ids idt
    obtain ⟨S', a', k1, I'⟩ := I.exec hL H hW (fun _ => i4) (fun _ => j4) sched
    obtain ⟨sched', S'', k2, k3⟩ := I'.finish_all hL H hW (fun _ => i4) (fun _ => j4) n
    refine ⟨sched', .ok (⟨S''.h, W.g⟩, .unit), ?_⟩
    rw [updatePar_eq B base E hes het hsym i1 i2 i3 j1 j2 j3, hpar, exec_append, k1, Option.bind_some, k2, Option.map_some, k3]
  · obtain ⟨hW, I⟩ := hst ids idt
    obtain ⟨S', a', k1, I'⟩ := I.exec hL H hW (fun _ => hids) (fun _ => hidt) sched
    rw [team_eq hp]
    exact ⟨S', k1, fun i i' hi p p' h1 h2 => I'.no_race hL H hW hids hidt hi h1 h2⟩

/-! ### Time steps -/

theorem steps_par_ok (hL : C.L.WF) (B : Bits w V) (base : Nat → Nat) (E : FEnv) (K : Stencil w) (e1 e : Entry w) (F : FOps w) {s o : Nat}
    (hso : s ≠ o) (b : Box) (t : Peel.CTy) {d ex : Ext} (hd : d ≠ ⟨0, 0, 0⟩) {n : Nat} {zs : Nat → List Int}
    (hstep : ∀ (W : World V) (σ : Loc → V), Valid C dv W → DimsAre C W s d → DimsAre C W o d → (∀ l, InGrid C W l → ValueIs C W l (σ l)) →
      K.Inside B s o b (InGrid C W) σ → Parallel C dv B base E K t e1 e b n zs W s o ex ex (K.apply B F s o b σ)) (scheds : List (List Nat)) :
    ∀ (W : World V) (σ : Loc → V), Valid C dv W → DimsAre C W s d → DimsAre C W o d → (∀ l, InGrid C W l → ValueIs C W l (σ l)) →
      K.Reach s o b (InGrid C W) → K.Numbers B s o (InGrid C W) σ →
      (∀ r, timeStepsPar C B base E K t e1 e b n zs s o scheds W = some r →
        Yields C dv W ((fun σ => exchange s o (K.apply B F s o b σ))^[scheds.length] σ) r) ∧
      ∃ scheds' : List (List Nat), scheds'.length = scheds.length ∧ (∀ i (h : i < scheds.length) (h' : i < scheds'.length), scheds[i] <+: scheds'[i]) ∧
        (timeStepsPar C B base E K t e1 e b n zs s o scheds' W).isSome = true := by
  induction scheds with
  | nil =>
    intro W σ hV hs ho hσ _ _
    refine ⟨?_, [], rfl, fun i h => (by cases h), rfl⟩
    rintro r hr
    simp only [timeStepsPar, Option.some.injEq] at hr
    subst hr
    exact ⟨W, rfl, hV, fun _ _ => Iff.rfl, hσ⟩
  | cons sched scheds ih =>
    intro W σ hV hs ho hσ hre hn
    have P := hstep W σ hV hs ho hσ (hre.inside hn)
    have next : ∀ sched r, updatePar C B base E K t e1 e b n zs sched W s o = some r → ∃ W1 W2, r = .ok (W1, .unit) ∧
        W1.step C (.swap s o) = .ok (W2, .unit) ∧ (∀ s d, DimsAre C W2 s d ↔ DimsAre C W s d) ∧ Valid C dv W2 ∧
        (∀ l, InGrid C W2 l → ValueIs C W2 l (exchange s o (K.apply B F s o b σ) l)) ∧
        K.Reach s o b (InGrid C W2) ∧ K.Numbers B s o (InGrid C W2) (exchange s o (K.apply B F s o b σ)) := by
      intro sched r hr
      obtain ⟨W1, k1, k2, k3, k4⟩ := P.values sched r hr
      have hg : ∀ {W W' : World V}, (∀ s d, DimsAre C W' s d ↔ DimsAre C W s d) → ∀ l, InGrid C W' l ↔ InGrid C W l := by
        intro W W' h l
        unfold InGrid
        simp only [h]
      have g1 := hg k3
      obtain ⟨W2, j1, j2, j3, j4⟩ := swap_ok (dv := dv) hL k2 hso ((k3 _ _).2 hs) ((k3 _ _).2 ho) hd (σ := K.apply B F s o b σ)
        fun l hl => k4 l ((g1 l).1 hl)
      have g2 : ∀ l, InGrid C W2 l ↔ InGrid C W l := fun l => (hg j3 l).trans (g1 l)
      have d2 : ∀ s d, DimsAre C W2 s d ↔ DimsAre C W s d := fun s d => (j3 s d).trans (k3 s d)
      refine ⟨W1, W2, k1, j1, d2, j2, fun l hl => j4 l ((hg j3 l).1 hl),
        fun x y z hb => ⟨(g2 _).2 (hre x y z hb).1, fun j hj => (g2 _).2 ((hre x y z hb).2 j hj)⟩, ?_⟩
      intro l hl h2 h3
      unfold exchange
      refine hn.apply _ ?_ ?_ h3
      · obtain ⟨dl, m, q1, q2⟩ := (g2 l).1 hl
        have uniq : ∀ t d1 d2, DimsAre C W t d1 → DimsAre C W t d2 → d1 = d2 := by
          intro t d1 d2 q1 q2
          unfold DimsAre at q1 q2
          rw [q1] at q2
          simpa using q2
        refine ⟨dl, m, ?_, q2⟩
        rcases h2 with h2 | h2
        · simp only [h2, if_true]
          rw [h2] at q1
          rw [uniq _ _ _ q1 hs]; exact ho
        · have : ¬ o = s := Ne.symm hso
          simp only [h2, this, if_false, if_true]
          rw [h2] at q1
          rw [uniq _ _ _ q1 ho]; exact hs
      · rcases h2 with h2 | h2
        · simp [h2]
        · have : ¬ o = s := Ne.symm hso
          simp [h2, this]
    have hg : ∀ {W W' : World V}, (∀ s d, DimsAre C W' s d ↔ DimsAre C W s d) → ∀ l, InGrid C W' l ↔ InGrid C W l := by
      intro W W' h l
      unfold InGrid
      simp only [h]
    refine ⟨fun r hr => ?_, ?_⟩
    · simp only [timeStepsPar] at hr
      cases hu : updatePar C B base E K t e1 e b n zs sched W s o with
      | none => rw [hu] at hr; cases hr
      | some r1 =>
        obtain ⟨W1, W2, rfl, q2, q3, q4, q5, q6, q7⟩ := next sched r1 hu
        rw [hu] at hr
        simp only [q2] at hr
        obtain ⟨W3, i1, i2, i3, i4⟩ := (ih W2 _ q4 ((q3 _ _).2 hs) ((q3 _ _).2 ho) q5 q6 q7).1 r hr
        refine ⟨W3, i1, i2, fun s d => (i3 s d).trans (q3 s d), fun l hl => ?_⟩
        rw [List.length_cons, Function.iterate_succ_apply]
        exact i4 l ((hg q3 l).2 hl)
    · obtain ⟨sched', r1, hu⟩ := P.finishes sched
      obtain ⟨W1, W2, rfl, q2, q3, q4, q5, q6, q7⟩ := next _ r1 hu
      obtain ⟨scheds', l1, l2, l3⟩ := (ih W2 _ q4 ((q3 _ _).2 hs) ((q3 _ _).2 ho) q5 q6 q7).2
      refine ⟨(sched ++ sched') :: scheds', by simp [l1], ?_, ?_⟩
      · intro i h h'
        cases i with
        | zero => exact List.prefix_append _ _
        | succ i => exact l2 i (by simpa using h) (by simpa using h')
      · simp only [timeStepsPar, hu, q2]
        exact l3

/-! ### C64 -/

theorem float_hardware (c : SV.Cfg) (e1 e : Entry 32) (he1 : e1 ∈ SV.floatVecs c) (h1 : e1.impl.N = 1) (he : e ∈ SV.floatVecs c) (E : FEnv)
    (K : Stencil 32) (hk : K.code.only (SV.exactDiv c e.impl.N) (!SV.usesNeon c e.impl.N) (SV.hasFloatCmp c e.impl.N) = true) :
    Hardware E K e1 e E.f32 (SV.floatReqs c e1.impl.N) (SV.floatReqs c e.impl.N) (SV.exactDiv c e.impl.N) (!SV.usesNeon c e.impl.N)
      (SV.hasFloatCmp c e.impl.N) := by
  have hN := SV.float_arity c e he
  have hpos : 0 < e.impl.N := by
    have : ∀ n ∈ [1, 2, 4, 8, 16, 32], 0 < n := by decide
    exact this _ hN
  have H := SV.float_faithful c e he E
  rw [SV.C45_float_available c e he] at H
  have H1 := SV.float_faithful c e1 he1 E
  rw [SV.C45_float_available c e1 he1] at H1
  refine ⟨H1.weaken ?_ ?_ ?_, H, SV.C46_float_partial c e1 he1 E, SV.C46_float_partial c e he E, h1, hpos, by decide, hk⟩
  · rw [h1]; intro _; rfl
  · rw [h1]; intro _; simp only [SV.usesNeon]; rfl
  · rw [h1]; intro _; cases c <;> rfl

theorem float_parallel (hL : C.L.WF) (htr : C.tr = .dflt) (c : SV.Cfg) (e1 e : Entry 32) (he1 : e1 ∈ SV.floatVecs c) (h1 : e1.impl.N = 1)
    (he : e ∈ SV.floatVecs c) (E : FEnv) (B : Bits 32 V) (base : Nat → Nat) (hbase : ∀ id, 4096 ∣ base id) (K : Stencil 32)
    (hk : K.code.only (SV.exactDiv c e.impl.N) (!SV.usesNeon c e.impl.N) (SV.hasFloatCmp c e.impl.N) = true) (s o : Nat)
    (hsafe : K.ParSafe s o) (ds dt es et : Ext) (hes : selectSizes C.tr ds = .ok es) (het : selectSizes C.tr dt = .ok et)
    (hsym : C.asym = true ∨ ds = dt) (hal : K.Aligned C 4 ds dt es et e.impl.N (SV.floatReqs c e.impl.N))
    (t : Peel.CTy) (b : Box) (xe : Int) (hruns : Runs t e.impl.N b.x0 b.x1 xe) (n : Nat) (zs : Nat → List Int) (hz : Splits b n zs)
    (W : World V) (hV : Valid C dv W) (hds : DimsAre C W s ds) (hdt : DimsAre C W o dt) (hns : ds ≠ ⟨0, 0, 0⟩) (hnt : dt ≠ ⟨0, 0, 0⟩)
    (σ : Loc → V) (hσ : ∀ l, InGrid C W l → ValueIs C W l (σ l)) (hin : K.Inside B s o { b with x1 := xe } (InGrid C W) σ) :
    Parallel C dv B base E K t e1 e b n zs W s o es et (K.apply B E.f32 s o { b with x1 := xe } σ) := by
  refine parallel_ok hL B base E (float_hardware c e1 e he1 h1 he E K hk) hsafe t hruns hes het hsym
    (fun ids idt => hal.accesses htr (by decide) hes het ?_ ?_ ?_ hbase b ids idt) hz hV hds hdt hns hnt hσ hin
  · rw [h1]; cases K.mode <;> rfl
  · rw [h1]; cases K.mode <;> rfl
  · have : ∀ M : Mode, ∀ n ∈ [1, 2, 4, 8, 16, 32], M.loadReq (SV.floatReqs c n) ∣ n * 4 := by intro M; cases c <;> cases M <;> decide
    exact this _ _ (SV.float_arity c e he)

/-- C64 for `float`: a functor which updates a member with vectors of any arity, on any target, and which uses any number of OpenMP threads to
    do so. However the loop is split and whatever the threads' timing is, there are no data races, all threads can finish, and when they
    have, each cell of the box has the value which the scalar code computes from the values before the call; nothing else has changed.
    Missing: what C62_float_partial lacks, and functors which read from slices that other threads write (C64_false). -/
theorem C64_float_partial (hL : C.L.WF) (htr : C.tr = .dflt) (c : SV.Cfg) (e1 e : Entry 32) (he1 : e1 ∈ SV.floatVecs c) (h1 : e1.impl.N = 1)
    (he : e ∈ SV.floatVecs c) (E : FEnv) (B : Bits 32 V) (base : Nat → Nat) (hbase : ∀ id, 4096 ∣ base id) (K : Stencil 32)
    (hk : K.code.only (SV.exactDiv c e.impl.N) (!SV.usesNeon c e.impl.N) (SV.hasFloatCmp c e.impl.N) = true) (s o : Nat)
    (hsafe : K.ParSafe s o) (ds dt es et : Ext) (hes : selectSizes C.tr ds = .ok es) (het : selectSizes C.tr dt = .ok et)
    (hsym : C.asym = true ∨ ds = dt) (hal : K.Aligned C 4 ds dt es et e.impl.N (SV.floatReqs c e.impl.N))
    (t : Peel.CTy) (ht : (e.impl.N : Int) ∣ t.hi) (b : Box) (hx : 0 ≤ b.x0) (hstop : b.x1 < t.hi)
    (q : Int) (hq : b.x0 ≤ e.impl.N * q) (hq' : e.impl.N * q ≤ b.x1) (n : Nat) (zs : Nat → List Int) (hz : Splits b n zs)
    (W : World V) (hV : Valid C dv W) (hds : DimsAre C W s ds) (hdt : DimsAre C W o dt) (hns : ds ≠ ⟨0, 0, 0⟩) (hnt : dt ≠ ⟨0, 0, 0⟩)
    (σ : Loc → V) (hσ : ∀ l, InGrid C W l → ValueIs C W l (σ l)) (hin : K.Inside B s o b (InGrid C W) σ) :
    Parallel C dv B base E K t e1 e b n zs W s o es et (K.apply B E.f32 s o b σ) := by
  have hpos : 0 < e.impl.N := by
    have : ∀ n ∈ [1, 2, 4, 8, 16, 32], 0 < n := by decide
    exact this _ (SV.float_arity c e he)
  exact float_parallel hL htr c e1 e he1 h1 he E B base hbase K hk s o hsafe ds dt es et hes het hsym hal t b b.x1
    (runs_peeled (C37_partial t e.impl.N hpos ht b.x0 b.x1 hx hstop q hq hq')) n zs hz W hV hds hdt hns hnt σ hσ hin

theorem double_hardware (c : SV.Cfg) (e1 e : Entry 64) (he1 : e1 ∈ SV.doubleVecs c) (h1 : e1.impl.N = 1) (he : e ∈ SV.doubleVecs c) (E : FEnv)
    (K : Stencil 64) (hk : K.code.only (!decide (c = .qpx ∧ 2 < e.impl.N)) (!decide (c = .qpx ∧ 2 < e.impl.N))
      (SV.hasDoubleCmp c e.impl.N) = true) :
    Hardware E K e1 e E.f64 (SV.doubleReqs c e1.impl.N) (SV.doubleReqs c e.impl.N) (!decide (c = .qpx ∧ 2 < e.impl.N))
      (!decide (c = .qpx ∧ 2 < e.impl.N)) (SV.hasDoubleCmp c e.impl.N) := by
  have hN := SV.double_arity c e he
  have hpos : 0 < e.impl.N := by
    have : ∀ n ∈ [1, 2, 4, 8, 16, 32], 0 < n := by decide
    exact this _ hN
  have H := SV.double_faithful c e he E
  rw [SV.C45_double_available c e he] at H
  have H1 := SV.double_faithful c e1 he1 E
  rw [SV.C45_double_available c e1 he1] at H1
  refine ⟨H1.weaken ?_ ?_ ?_, H, SV.C46_double_partial c e1 he1 E, SV.C46_double_partial c e he E, h1, hpos, by decide, hk⟩
  · rw [h1]; intro _; simp
  · rw [h1]; intro _; simp
  · rw [h1]; intro _; cases c <;> rfl

/-- C64 for `double`. -/
theorem C64_double_partial (hL : C.L.WF) (htr : C.tr = .dflt) (c : SV.Cfg) (e1 e : Entry 64) (he1 : e1 ∈ SV.doubleVecs c) (h1 : e1.impl.N = 1)
    (he : e ∈ SV.doubleVecs c) (E : FEnv) (B : Bits 64 V) (base : Nat → Nat) (hbase : ∀ id, 4096 ∣ base id) (K : Stencil 64)
    (hk : K.code.only (!decide (c = .qpx ∧ 2 < e.impl.N)) (!decide (c = .qpx ∧ 2 < e.impl.N)) (SV.hasDoubleCmp c e.impl.N) = true)
    (s o : Nat) (hsafe : K.ParSafe s o)
    (ds dt es et : Ext) (hes : selectSizes C.tr ds = .ok es) (het : selectSizes C.tr dt = .ok et) (hsym : C.asym = true ∨ ds = dt)
    (hal : K.Aligned C 8 ds dt es et e.impl.N (SV.doubleReqs c e.impl.N))
    (t : Peel.CTy) (ht : (e.impl.N : Int) ∣ t.hi) (b : Box) (hx : 0 ≤ b.x0) (hstop : b.x1 < t.hi)
    (q : Int) (hq : b.x0 ≤ e.impl.N * q) (hq' : e.impl.N * q ≤ b.x1) (n : Nat) (zs : Nat → List Int) (hz : Splits b n zs)
    (W : World V) (hV : Valid C dv W) (hds : DimsAre C W s ds) (hdt : DimsAre C W o dt) (hns : ds ≠ ⟨0, 0, 0⟩) (hnt : dt ≠ ⟨0, 0, 0⟩)
    (σ : Loc → V) (hσ : ∀ l, InGrid C W l → ValueIs C W l (σ l)) (hin : K.Inside B s o b (InGrid C W) σ) :
    Parallel C dv B base E K t e1 e b n zs W s o es et (K.apply B E.f64 s o b σ) := by
  have hpos : 0 < e.impl.N := by
    have : ∀ n ∈ [1, 2, 4, 8, 16, 32], 0 < n := by decide
    exact this _ (SV.double_arity c e he)
  refine parallel_ok hL B base E (double_hardware c e1 e he1 h1 he E K hk) hsafe t
    (runs_peeled (C37_partial t e.impl.N hpos ht b.x0 b.x1 hx hstop q hq hq')) hes het hsym
    (fun ids idt => hal.accesses htr (by decide) hes het ?_ ?_ ?_ hbase b ids idt) hz hV hds hdt hns hnt hσ hin
  · rw [h1]; cases c <;> cases K.mode <;> rfl
  · rw [h1]; cases c <;> cases K.mode <;> rfl
  · have : ∀ M : Mode, ∀ n ∈ [1, 2, 4, 8, 16, 32], M.loadReq (SV.doubleReqs c n) ∣ n * 8 := by intro M; cases c <;> cases M <;> decide
    exact this _ _ (SV.double_arity c e he)

/-- C64 for time steps on `float`s: any number of calls, each followed by `swap`, iterates the scalar code, for all schedules. -/
theorem C64_float_steps_partial (hL : C.L.WF) (htr : C.tr = .dflt) (c : SV.Cfg) (e1 e : Entry 32) (he1 : e1 ∈ SV.floatVecs c)
    (h1 : e1.impl.N = 1) (he : e ∈ SV.floatVecs c) (E : FEnv) (B : Bits 32 V) (base : Nat → Nat) (hbase : ∀ id, 4096 ∣ base id)
    (K : Stencil 32) (hk : K.code.only (SV.exactDiv c e.impl.N) (!SV.usesNeon c e.impl.N) (SV.hasFloatCmp c e.impl.N) = true)
    (s o : Nat) (hso : s ≠ o) (hsafe : K.ParSafe s o) (d ex : Ext) (hex : selectSizes C.tr d = .ok ex)
    (hal : K.Aligned C 4 d d ex ex e.impl.N (SV.floatReqs c e.impl.N))
    (t : Peel.CTy) (ht : (e.impl.N : Int) ∣ t.hi) (b : Box) (hx : 0 ≤ b.x0) (hstop : b.x1 < t.hi)
    (q : Int) (hq : b.x0 ≤ e.impl.N * q) (hq' : e.impl.N * q ≤ b.x1) (n : Nat) (zs : Nat → List Int) (hz : Splits b n zs)
    (W : World V) (hV : Valid C dv W) (hds : DimsAre C W s d) (hdt : DimsAre C W o d) (hd : d ≠ ⟨0, 0, 0⟩)
    (σ : Loc → V) (hσ : ∀ l, InGrid C W l → ValueIs C W l (σ l)) (hin : K.Reach s o b (InGrid C W)) (hnum : K.Numbers B s o (InGrid C W) σ)
    (scheds : List (List Nat)) :
    (∀ r, timeStepsPar C B base E K t e1 e b n zs s o scheds W = some r →
      Yields C dv W ((fun σ => exchange s o (K.apply B E.f32 s o b σ))^[scheds.length] σ) r) ∧
    ∃ scheds' : List (List Nat), scheds'.length = scheds.length ∧ (∀ i (h : i < scheds.length) (h' : i < scheds'.length), scheds[i] <+: scheds'[i]) ∧
      (timeStepsPar C B base E K t e1 e b n zs s o scheds' W).isSome = true :=
  steps_par_ok hL B base E K e1 e E.f32 hso b t hd (fun W σ hV hs ho hσ hin => C64_float_partial hL htr c e1 e he1 h1 he E B base hbase K hk s o
    hsafe d d ex ex hex hex (.inr rfl) hal t ht b hx hstop q hq hq' n zs hz W hV hs ho hd hd σ hσ hin) scheds W σ hV hds hdt hσ hin hnum

/-- C64 for time steps on `double`s. -/
theorem C64_double_steps_partial (hL : C.L.WF) (htr : C.tr = .dflt) (c : SV.Cfg) (e1 e : Entry 64) (he1 : e1 ∈ SV.doubleVecs c)
    (h1 : e1.impl.N = 1) (he : e ∈ SV.doubleVecs c) (E : FEnv) (B : Bits 64 V) (base : Nat → Nat) (hbase : ∀ id, 4096 ∣ base id)
    (K : Stencil 64) (hk : K.code.only (!decide (c = .qpx ∧ 2 < e.impl.N)) (!decide (c = .qpx ∧ 2 < e.impl.N))
      (SV.hasDoubleCmp c e.impl.N) = true)
    (s o : Nat) (hso : s ≠ o) (hsafe : K.ParSafe s o) (d ex : Ext) (hex : selectSizes C.tr d = .ok ex)
    (hal : K.Aligned C 8 d d ex ex e.impl.N (SV.doubleReqs c e.impl.N))
    (t : Peel.CTy) (ht : (e.impl.N : Int) ∣ t.hi) (b : Box) (hx : 0 ≤ b.x0) (hstop : b.x1 < t.hi)
    (q : Int) (hq : b.x0 ≤ e.impl.N * q) (hq' : e.impl.N * q ≤ b.x1) (n : Nat) (zs : Nat → List Int) (hz : Splits b n zs)
    (W : World V) (hV : Valid C dv W) (hds : DimsAre C W s d) (hdt : DimsAre C W o d) (hd : d ≠ ⟨0, 0, 0⟩)
    (σ : Loc → V) (hσ : ∀ l, InGrid C W l → ValueIs C W l (σ l)) (hin : K.Reach s o b (InGrid C W)) (hnum : K.Numbers B s o (InGrid C W) σ)
    (scheds : List (List Nat)) :
    (∀ r, timeStepsPar C B base E K t e1 e b n zs s o scheds W = some r →
      Yields C dv W ((fun σ => exchange s o (K.apply B E.f64 s o b σ))^[scheds.length] σ) r) ∧
    ∃ scheds' : List (List Nat), scheds'.length = scheds.length ∧ (∀ i (h : i < scheds.length) (h' : i < scheds'.length), scheds[i] <+: scheds'[i]) ∧
      (timeStepsPar C B base E K t e1 e b n zs s o scheds' W).isSome = true :=
  steps_par_ok hL B base E K e1 e E.f64 hso b t hd (fun W σ hV hs ho hσ hin => C64_double_partial hL htr c e1 e he1 h1 he E B base hbase K hk s o
    hsafe d d ex ex hex hex (.inr rfl) hal t ht b hx hstop q hq hq' n zs hz W hV hs ho hd hd σ hσ hin) scheds W σ hV hds hdt hσ hin hnum

/-- `schedule(static)`: thread `i` processes the slices from `f i` to `f (i + 1) - 1`. -/
theorem Splits.contiguous (b : Box) (n : Nat) (f : Nat → Int) (h0 : f 0 = b.z0) (hn : f n = b.z1) (hf : ∀ i < n, f i ≤ f (i + 1)) :
    Splits b n fun i => if i < n then Peel.iota (f i) (f (i + 1) - f i).toNat else [] := by
  have mono : ∀ i j, i ≤ j → j ≤ n → f i ≤ f j := by
    intro i j hij
    induction hij with
    | refl => intro _; exact Int.le_refl _
    | step h ih => intro hn; exact Int.le_trans (ih (by omega)) (hf _ (by omega))
  have mem : ∀ i z, (z ∈ if i < n then Peel.iota (f i) (f (i + 1) - f i).toNat else []) ↔ i < n ∧ f i ≤ z ∧ z < f (i + 1) := by
    intro i z
    by_cases hi : i < n
    · rw [if_pos hi, mem_iota]
      have := hf i hi
      omega
    · simp [hi]
  refine ⟨fun i => ?_, fun i i' hi z h1 h2 => ?_, fun z => ?_, fun i hi => if_neg (by omega)⟩
  · split
    · exact (iota_sorted _ _).imp fun h => by omega
    · exact List.nodup_nil
  · rw [mem] at h1 h2
    rcases Nat.lt_or_gt_of_ne hi with h | h
    · have := mono (i + 1) i' h (by omega); omega
    · have := mono (i' + 1) i h (by omega); omega
  · simp only [mem]
    constructor
    · rintro ⟨i, h1, -, h2, h3⟩
      have := mono 0 i (by omega) (by omega)
      have := mono (i + 1) n (by omega) (by omega)
      omega
    · rintro ⟨h1, h2⟩
      have : ∀ k ≤ n, z < f k → ∃ i < n, i < n ∧ f i ≤ z ∧ z < f (i + 1) := by
        intro k
        induction k with
        | zero => intro _ h; omega
        | succ k ih =>
          intro hk h
          by_cases hz : f k ≤ z
          · exact ⟨k, by omega, by omega, hz, h⟩
          · exact ih (by omega) (by omega)
      exact this n (by omega) (by omega)

/-! ### A data race -/

/-- `new.member = new[coord<0, 0, 1>()].member` -/
def above (w r : Nat) : Stencil w := ⟨.var 0, fun _ => true, fun _ => ⟨0, 0, 1, r, 0⟩, ⟨0, 0, 0, r, 0⟩, .plain⟩

theorem above_safe (w r s o : Nat) : (above w r).Safe s o := by
  intro j _ _ _ _
  simp [above, Before]

theorem exec_step {T : Env w V} {K : Stencil w} {A : Pair} {e1 e : Entry w} {i : Nat} {is : List Nat} {S : Team e1 e V}
    {r : Thread e1 e × Heap V} (h : stepT T K A e1 e (S.threads i) S.h = some r) :
    exec T K A e1 e (i :: is) S = exec T K A e1 e is ⟨World.upd S.threads i r.1, r.2⟩ := by
  rw [exec, h, Option.bind_some]

theorem race (hL : C.L.WF) (B : Bits w V) (base : Nat → Nat) (E : FEnv) {r : Nat} {e1 e : Entry w} {F : FOps w} {Q1 Q : Reqs} {d f c : Bool}
    (H : Hardware E (above w r) e1 e F Q1 Q d f c) {s o : Nat} {t : Peel.CTy}
    (hpeel : ∃ stop, Peel.peel t e.impl.N 0 1 = some ([(1, 0)], stop)) {A : Pair} {b : Box}
    (hA : (above w r).Accesses C base A b e.impl.N Q1 Q) (hb : b = ⟨0, 1, 0, 1, 0, 2⟩)
    {W : World V} {a : AWorld V} (hR : R C W a) (hs : Has C W s A.es A.ids) (ho : Has C W o A.et A.idt)
    (hin : (above w r).Inside B s o b (InA C a) (valA dv a)) :
    ∃ S p p', exec ⟨C.L, B, base, E⟩ (above w r) A e1 e [1, 1, 1, 0] (team t e1 e b (fun i => if i < 2 then [(i : Int)] else []) W.h) = some S ∧
      (S.threads 0).next ⟨C.L, B, base, E⟩ (above w r) A = some p ∧ (S.threads 1).next ⟨C.L, B, base, E⟩ (above w r) A = some p' ∧
      p.Conflict p' := by
  obtain ⟨stop, hp⟩ := hpeel
  subst hb
  rw [team_eq hp]
  have hca : (⟨1, 0, 0, 1⟩ : At).a = 1 ∨ (⟨1, 0, 0, 1⟩ : At).a = e.impl.N := .inl rfl
  have hN := entryOf_N H.n1 hca
  have hN' : (entryOf e1 e ⟨1, 0, 0, 0⟩).impl.N = 1 := entryOf_N H.n1 (.inl rfl)
  simp only at hN
  have hpos := H.size
  have hc1 : boxCalls [(1, 0)] (Box.slices ⟨0, 1, 0, 1, 0, 2⟩ [1]) = [⟨1, 0, 0, 1⟩] := rfl
  have hc0 : boxCalls [(1, 0)] (Box.slices ⟨0, 1, 0, 1, 0, 2⟩ [0]) = [⟨1, 0, 0, 0⟩] := rfl
  have hr : ((0 : Int), (1 : Int)) ∈ Box.rows ⟨0, 1, 0, 1, 0, 2⟩ := Box.mem_rows.2 (by decide)
  have hj0 : 0 ∈ (above w r).code.vars := by simp [above, Expr.vars]
  obtain ⟨al, i1, i2, i3⟩ := hA.store
  obtain ⟨al1, i4, i5⟩ := hA.store1
  -- the pointers
  have hptr : Pointers C base (above w r) A (if (1 : Nat) = e.impl.N then Q else Q1) ⟨1, 0, 0, 1⟩ := by
    by_cases hn : 1 = e.impl.N
    · simp only [hn, if_true]
      exact ⟨fun j hj => (hA.src j hj).pointer hr (N := e.impl.N) (Int.dvd_zero _) (Nat.dvd_refl _) hA.load,
        al, i1, i3.pointer hr (N := e.impl.N) (Int.dvd_zero _) (Nat.dvd_refl _) i2⟩
    · simp only [hn, if_false]
      exact ⟨fun j hj => (hA.src j hj).pointer1 hA.load1, al1, i4, i3.pointer1 i5⟩
  have hins := hin 0 0 1 (by decide)
  obtain ⟨v0, hv0⟩ := Option.isSome_iff_exists.1 (hins.2 0 hj0).2
  obtain ⟨v, hv, hlane⟩ := load_ok (dv := dv) hL B base E (H.transfers ⟨1, 0, 0, 1⟩) hpos (H.pos _) hR hs ho 0 0 1 0 (hptr.1 0 hj0)
    (fun i hi => by
      have : i = 0 := by omega
      subst this
      exact (hins.2 0 hj0).1) (fun _ => v0) (fun i hi => by
      have : i = 0 := by omega
      subst this
      exact hv0)
  obtain ⟨al', k1, m, hm, hsz, ⟨q, hq⟩, hal'⟩ := hptr.2
  obtain ⟨ws, hws, hwin, hlast⟩ := store_last (Mode.store_ok (H.transfers ⟨1, 0, 0, 1⟩) (above w r).mode k1) (by omega) v q
    (by rw [Int.mul_comm, ← hq]; exact hal')
  have hel : elem (w := w) C.L (base A.idt) A.et 0 0 1 (above w r).dst m = some q := by
    rw [elem, if_pos ⟨hsz, ⟨q, hq⟩⟩, hq, Int.mul_ediv_cancel_left _ (by omega)]
  cases ws with
  | nil => have := hlast 0 (H.pos _); simp [last] at this
  | cons x ws =>
    obtain ⟨qx, vx⟩ := x
    obtain ⟨k, hk, hqx⟩ := hwin _ List.mem_cons_self
    have hk0 : k = 0 := by omega
    subst hk0
    simp only [Nat.cast_zero, Int.add_zero] at hqx
    subst hqx
    have st2 : stepT ⟨C.L, B, base, E⟩ (above w r) A e1 e ⟨[], .loading ⟨1, 0, 0, 1⟩ [0] fun _ => none⟩ W.h =
        some (⟨[], .loading ⟨1, 0, 0, 1⟩ [] fun i => if i = 0 then some v else none⟩, W.h) := by
      simp only [stepT, hv, Option.map_some]
    have st3 : stepT ⟨C.L, B, base, E⟩ (above w r) A e1 e ⟨[], .loading ⟨1, 0, 0, 1⟩ [] fun i => if i = 0 then some v else none⟩ W.h =
        some (⟨[], .storing ⟨1, 0, 0, 1⟩ ((qx, vx) :: ws)⟩, W.h) := by
      simp only [stepT]
      rw [show (above w r).code = .var 0 from rfl]
      simp only [Expr.vec, if_true, Option.bind_some, hm, hel]
      rw [hws, Option.map_some]
    have hex : ∃ S, exec ⟨C.L, B, base, E⟩ (above w r) A e1 e [1, 1, 1, 0]
        ⟨fun i => ⟨boxCalls [(1, 0)] (Box.slices ⟨0, 1, 0, 1, 0, 2⟩ (if i < 2 then [(i : Int)] else [])), .idle⟩, W.h⟩ = some S ∧
        S.threads 0 = ⟨[], .loading ⟨1, 0, 0, 0⟩ [0] fun _ => none⟩ ∧ S.threads 1 = ⟨[], .storing ⟨1, 0, 0, 1⟩ ((qx, vx) :: ws)⟩ := by
      have st1 : stepT ⟨C.L, B, base, E⟩ (above w r) A e1 e
          ⟨boxCalls [(1, 0)] (Box.slices ⟨0, 1, 0, 1, 0, 2⟩ (if 1 < 2 then [((1 : Nat) : Int)] else [])), .idle⟩ W.h =
          some (⟨[], .loading ⟨1, 0, 0, 1⟩ [0] fun _ => none⟩, W.h) := rfl
      have st0 : stepT ⟨C.L, B, base, E⟩ (above w r) A e1 e
          ⟨boxCalls [(1, 0)] (Box.slices ⟨0, 1, 0, 1, 0, 2⟩ (if 0 < 2 then [((0 : Nat) : Int)] else [])), .idle⟩ W.h =
          some (⟨[], .loading ⟨1, 0, 0, 0⟩ [0] fun _ => none⟩, W.h) := rfl
      rw [exec_step (i := 1) st1, exec_step (i := 1) (r := (⟨[], .loading ⟨1, 0, 0, 1⟩ [] fun i => if i = 0 then some v else none⟩, W.h))
        (by simp only [upd_apply, if_true]; exact st2),
        exec_step (i := 1) (r := (⟨[], .storing ⟨1, 0, 0, 1⟩ ((qx, vx) :: ws)⟩, W.h)) (by simp only [upd_apply, if_true]; exact st3),
        exec_step (i := 0) (r := (⟨[], .loading ⟨1, 0, 0, 0⟩ [0] fun _ => none⟩, W.h)) (by simp only [upd_apply]; exact st0)]
      exact ⟨_, rfl, by simp [upd_apply], by simp [upd_apply]⟩
    obtain ⟨S, e0, t0, t1⟩ := hex
    refine ⟨S, ⟨A.idt, addr C.L (base A.idt) A.et 0 0 0 ⟨0, 0, 1, r, 0⟩ m - base A.idt,
      (entryOf e1 e ⟨1, 0, 0, 0⟩).impl.N * m.ty.size, false⟩, ⟨A.idt, qx * (w / 8 : Nat) - base A.idt, m.ty.size, true⟩, e0, ?_, ?_, rfl, .inr rfl, ?_⟩
    · rw [t0]
      simp only [Thread.next, above, if_true]
      rw [show C.L[r]? = some m from hm]; rfl
    · rw [t1]
      simp only [Thread.next]
      rw [hm]; rfl
    · refine ⟨qx * (w / 8 : Nat) - base A.idt, ?_, ?_, Int.le_refl _, by simp only [hsz]; omega⟩
      all_goals
        have he : addr C.L (base A.idt) A.et 0 0 0 ⟨0, 0, 1, r, 0⟩ m = qx * (w / 8 : Nat) := by
          rw [Int.mul_comm, ← hq]
          show _ = addr C.L (base A.idt) A.et 0 0 1 ⟨0, 0, 0, r, 0⟩ m
          unfold addr Acc.userRef
          cases m.arity <;> simp only [Acc.member, Acc.arrayRef, Acc.shift, accAt, genIndex] <;> ring
        simp only [he, hN', hsz]
        omega

/-- C64 is false for functors which read from the new grid what other threads write: `new.member = new[coord<0, 0, 1>()].member` gives the
    result of the scalar code if one thread executes it (C62), but is a data race if two threads do. -/
theorem C64_false (hL : C.L.WF) (htr : C.tr = .dflt) (c : SV.Cfg) (e1 e : Entry 32) (he1 : e1 ∈ SV.floatVecs c) (h1 : e1.impl.N = 1)
    (he : e ∈ SV.floatVecs c) (E : FEnv) (B : Bits 32 V) (base : Nat → Nat) (hbase : ∀ id, 4096 ∣ base id) (s o r : Nat)
    (hr : MemberSize C r 4) (d ex : Ext) (hex : selectSizes C.tr d = .ok ex) (hd : 1 ≤ d.x ∧ 1 ≤ d.y ∧ 3 ≤ d.z)
    (W : World V) (hV : Valid C dv W) (hds : DimsAre C W s d) (hdt : DimsAre C W o d)
    (σ : Loc → V) (hσ : ∀ l, InGrid C W l → ValueIs C W l (σ l)) (hnum : ∀ l, InGrid C W l → l.r = r → (B.bits (σ l)).isSome = true) :
    Yields C dv W ((above 32 r).apply B E.f32 s o ⟨0, 1, 0, 1, 0, 2⟩ σ)
      (update C B base E (above 32 r) (.signed 64) e1 e ⟨0, 1, 0, 1, 0, 2⟩ W s o) ∧
    ∃ ids idt S p p', Has C W s ex ids ∧ Has C W o ex idt ∧ Splits ⟨0, 1, 0, 1, 0, 2⟩ 2 (fun i => if i < 2 then [(i : Int)] else []) ∧
      exec ⟨C.L, B, base, E⟩ (above 32 r) ⟨ex, ex, ids, idt⟩ e1 e [1, 1, 1, 0]
        (team (.signed 64) e1 e ⟨0, 1, 0, 1, 0, 2⟩ (fun i => if i < 2 then [(i : Int)] else []) W.h) = some S ∧
      (S.threads 0).next ⟨C.L, B, base, E⟩ (above 32 r) ⟨ex, ex, ids, idt⟩ = some p ∧
      (S.threads 1).next ⟨C.L, B, base, E⟩ (above 32 r) ⟨ex, ex, ids, idt⟩ = some p' ∧ p.Conflict p' := by
  obtain ⟨m, hm, hsz⟩ := hr
  have hne : d ≠ ⟨0, 0, 0⟩ := by rintro rfl; simp at hd
  have hN := SV.float_arity c e he
  have hvars : ∀ j ∈ (above 32 r).code.vars, j = 0 := by simp [above, Expr.vars]
  have hin : (above 32 r).Inside B s o ⟨0, 1, 0, 1, 0, 2⟩ (InGrid C W) σ := by
    intro x y z hb
    simp only [Box.Has] at hb
    have hg : ∀ z, 0 ≤ z → z < 3 → InGrid C W ⟨o, x, y, z, r, 0⟩ := fun z h1 h2 => ⟨d, m, hdt, hm, (hL m (List.mem_of_getElem? hm)).2, by
      simp only; omega⟩
    refine ⟨?_, fun j _ => ?_⟩
    · have := hg z (by omega) (by omega)
      simpa [above, Stencil.dstLoc, at'] using this
    · have := hg (z + 1) (by omega) (by omega)
      have hl : (above 32 r).srcLoc s o j x y z = ⟨o, x, y, z + 1, r, 0⟩ := by simp [above, Stencil.srcLoc, Stencil.slot, at']
      rw [hl]
      exact ⟨this, hnum _ this rfl⟩
  have hk : (above 32 r).code.only (SV.exactDiv c e.impl.N) (!SV.usesNeon c e.impl.N) (SV.hasFloatCmp c e.impl.N) = true := rfl
  have hany : (SV.floatReqs c e.impl.N).any = 1 := by
    have : ∀ n ∈ [1, 2, 4, 8, 16, 32], (SV.floatReqs c n).any = 1 := by cases c <;> decide
    exact this _ hN
  have hal : (above 32 r).Aligned C 4 d d ex ex e.impl.N (SV.floatReqs c e.impl.N) :=
    ⟨fun j _ => ⟨m, hm, hsz⟩, fun j _ => .inl hany, ⟨m, hm, hsz⟩, 1, by simp [above, Mode.storeReq, hany], .inl rfl⟩
  refine ⟨?_, ?_⟩
  · exact C62_float_partial hL htr c e1 e he1 h1 he E B base hbase (above 32 r) hk s o (above_safe _ _ _ _) d d ex ex hex hex (.inr rfl) hal
      (.signed 64) (by
        have : ∀ n ∈ [1, 2, 4, 8, 16, 32], ((n : Nat) : Int) ∣ (Peel.CTy.signed 64).hi := by decide
        exact this _ hN) ⟨0, 1, 0, 1, 0, 2⟩ (by decide) (by decide) 0 (by simp) (by simp) W hV hds hdt hne hne σ hσ hin
  · obtain ⟨a, hR⟩ := hV.refines hL
    obtain ⟨ids, gs, i1, i2, i3, i4⟩ := has_of_dims hR hds hne hex
    obtain ⟨idt, gt, j1, j2, j3, j4⟩ := has_of_dims hR hdt hne hex
    have hva : ∀ l, InA C a l → valA dv a l = σ l := fun l hl =>
      valueIs_unique (valA_valueIs hL hR hl) (hσ l ((inA_iff hR l).1 hl))
    have hin' : (above 32 r).Inside B s o ⟨0, 1, 0, 1, 0, 2⟩ (InA C a) (valA dv a) := fun x y z hb => by
      obtain ⟨k1, k2⟩ := hin x y z hb
      refine ⟨(inA_iff hR _).2 k1, fun j hj => ?_⟩
      have := (inA_iff hR _).2 (k2 j hj).1
      exact ⟨this, by rw [hva _ this]; exact (k2 j hj).2⟩
    have hpeel : ∃ stop, Peel.peel (.signed 64) e.impl.N 0 1 = some ([(1, 0)], stop) := by
      have : ∀ n ∈ [1, 2, 4, 8, 16, 32], Peel.peel (.signed 64) n 0 1 = some ([(1, 0)], 1) := by decide
      exact ⟨1, this _ hN⟩
    obtain ⟨S, p, p', q1, q2, q3, q4⟩ := race (dv := dv) hL B base E (float_hardware c e1 e he1 h1 he E (above 32 r) hk) hpeel
      (hal.accesses htr (by decide) hex hex (by rw [h1]; rfl) (by rw [h1]; rfl) (by
        have : ∀ M : Mode, ∀ n ∈ [1, 2, 4, 8, 16, 32], M.loadReq (SV.floatReqs c n) ∣ n * 4 := by intro M; cases c <;> cases M <;> decide
        exact this _ _ hN) hbase ⟨0, 1, 0, 1, 0, 2⟩ ids idt) rfl hR i4 j4 hin'
    have hsplit := Splits.contiguous ⟨0, 1, 0, 1, 0, 2⟩ 2 (fun i => (i : Int)) rfl rfl (fun i _ => by push_cast; omega)
    refine ⟨ids, idt, S, p, p', i4, j4, ?_, q1, q2, q3, q4⟩
    convert hsplit using 2
    rename_i i
    split
    · have : ((i + 1 : Nat) : Int) - (i : Nat) = 1 := by push_cast; omega
      rw [this]; simp [Peel.iota]
    · rfl

/-! ### The hypotheses can be met -/
namespace Demo

theorem parSafe : K.ParSafe 0 1 := by
  intro j _ h
  simp [Stencil.slot, K] at h

/-- The slices 1, 2 and 3 are processed by two threads. -/
theorem splits : ∃ zs, Splits ⟨1, 59, 0, 5, 1, 4⟩ 2 zs :=
  ⟨_, Splits.contiguous ⟨1, 59, 0, 5, 1, 4⟩ 2 (fun i => if i = 0 then 1 else if i = 1 then 3 else 4) rfl rfl (by decide)⟩

/-- 3 steps on AVX with vectors of 8 `float`s, for the cells 1, …, 58 of rows with 60 cells. -/
example : ∃ W σ e1 e base zs, ∀ s1 s2 s3 r, timeStepsPar dC B base FEnv.demo K (.signed 64) e1 e ⟨1, 59, 0, 5, 1, 4⟩ 2 zs 0 1 [s1, s2, s3] W = some r →
    Yields dC 0 W ((fun σ => exchange 0 1 (K.apply B FEnv.demo.f32 0 1 ⟨1, 59, 0, 5, 1, 4⟩ σ))^[3] σ) r := by
  obtain ⟨W, hV, h0, h1⟩ := world ⟨60, 5, 4⟩ ⟨64, 64, 64⟩ (by decide) (by decide)
  obtain ⟨σ, hσ⟩ := Thr.exists_store hL hV
  obtain ⟨e1, he1, hn1, e, he, hn⟩ : ∃ e1 ∈ SV.floatVecs .avx, e1.impl.N = 1 ∧ ∃ e ∈ SV.floatVecs .avx, e.impl.N = 8 :=
    ⟨_, List.mem_cons_self, rfl, _, List.mem_cons_of_mem _ (List.mem_cons_of_mem _ (List.mem_cons_of_mem _ List.mem_cons_self)), rfl⟩
  obtain ⟨zs, hz⟩ := splits
  refine ⟨W, σ, e1, e, fun id => 4096 * (1 + 100000 * id), zs, fun s1 s2 s3 r hr => ?_⟩
  exact (C64_float_steps_partial hL rfl .avx e1 e he1 hn1 he FEnv.demo B _ (fun id => ⟨_, rfl⟩) K (by rw [hn]; rfl) 0 1 (by decide) parSafe
    ⟨60, 5, 4⟩ ⟨64, 64, 64⟩ (by decide) (aligned _ _ _ (by rw [hn]; rfl) _) (.signed 64) (by rw [hn]; decide) ⟨1, 59, 0, 5, 1, 4⟩ (by decide) (by decide)
    1 (by rw [hn]; decide) (by rw [hn]; decide) 2 _ hz W hV h0 h1 (by decide) σ hσ (reach h0 h1) (fun _ _ _ _ => rfl) [s1, s2, s3]).1 r hr

/-- The data race. -/
example : ∃ W e, Valid dC 0 W ∧ ∃ (S : Team (w := 32) e e (BitVec 32)) (T : Env 32 (BitVec 32)) (A : Pair) (p p' : Access),
    (S.threads 0).next T (above 32 0) A = some p ∧ (S.threads 1).next T (above 32 0) A = some p' ∧ p.Conflict p' := by
  obtain ⟨W, hV, h0, h1⟩ := world ⟨60, 5, 4⟩ ⟨64, 64, 64⟩ (by decide) (by decide)
  obtain ⟨σ, hσ⟩ := Thr.exists_store hL hV
  obtain ⟨e, he, hn⟩ : ∃ e ∈ SV.floatVecs .avx, e.impl.N = 1 := ⟨_, List.mem_cons_self, rfl⟩
  obtain ⟨-, ids, idt, S, p, p', -, -, -, -, q⟩ := C64_false hL rfl .avx e e he hn he FEnv.demo B (fun id => 4096 * (1 + 100000 * id))
    (fun id => ⟨_, rfl⟩) 0 1 0 ⟨_, rfl, rfl⟩ ⟨60, 5, 4⟩ ⟨64, 64, 64⟩ (by decide) (by decide) W hV h0 h1 σ hσ (fun _ _ _ => rfl)
  exact ⟨W, e, hV, S, _, _, p, p', q⟩

end Demo

end LFA.GK
