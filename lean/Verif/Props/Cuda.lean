import Verif.CudaProof
import Verif.Demo

/-
  Properties of the CUDA functors (C38, C39, C40, C53).
-/
set_option linter.unusedSectionVars false
namespace LFA

/-! ### C38 -/

/-- All threads started for the dimensions `d`. -/
def started (d : Ext) : List Thread :=
  threads (launchConfig (toInt32 d.x) (toInt32 d.y) (toInt32 d.z)).1 (launchConfig (toInt32 d.x) (toInt32 d.y) (toInt32 d.z)).2

/-- The coordinates which a thread computes for itself. -/
def startedCoords (d : Ext) : List (Nat × Nat × Nat) :=
  (started d).map (coords (launchConfig (toInt32 d.x) (toInt32 d.y) (toInt32 d.z)).2)

theorem startedCoords_eq {d : Ext} (hd : LaunchDims d) :
    ∃ D : Ext, d.Fits D ∧ startedCoords d = cellList D := by
  obtain ⟨hl, ⟨hx, hy, hz⟩, bx, by_, bz⟩ := launchConfig_ok hd
  exact ⟨⟨_, _, _⟩, ⟨bx, by_, bz⟩, threads_coords _ _ hl hx hy hz⟩

/-- C38: each cell is handled by one thread, and threads for other coordinates do nothing, for all dimensions which the hardware
    can cope with in a launch. Missing: larger dimensions (C38_false). -/
theorem C38_partial (d : Ext) (hd : LaunchDims d) :
    (∀ x y z, x < d.x → y < d.y → z < d.z → (startedCoords d).count (x, y, z) = 1) ∧
    (∀ {V : Type} [DecidableEq V] (L : Layout V) (e : Ext) (b : Dim3) (t : Thread),
      ¬ (tidX b t < d.x ∧ tidY b t < d.y ∧ tidZ b t < d.z) → constructKernel L d e b t = [] ∧ destroyKernel L d e b t = []) := by
  refine ⟨fun x y z hx hy hz => ?_, fun L e b t h => ?_⟩
  · obtain ⟨D, ⟨h1, h2, h3⟩, he⟩ := startedCoords_eq hd
    rw [he]
    exact List.count_eq_one_of_mem (nodup_cellList D)
      (mem_cellList.2 ⟨show x < D.x by omega, show y < D.y by omega, show z < D.z by omega⟩)
  · unfold constructKernel destroyKernel
    rw [guard3, guard3, if_neg h, if_neg h]
    exact ⟨rfl, rfl⟩

example : (startedCoords ⟨1000, 77, 3⟩).count (999, 76, 2) = 1 :=
  (C38_partial ⟨1000, 77, 3⟩ ⟨by decide, by decide, by decide⟩).1 _ _ _ (by decide) (by decide) (by decide)

/-- C38 holds for all grids with the default sizes. -/
theorem C38_default (d e : Ext) (h : selectSizes .dflt d = .ok e) : LaunchDims d := by
  have hmem : ∀ {l : List Nat} {dim s : Nat}, firstFit dim l = some s → s ∈ l := by
    intro l
    induction l with
    | nil => intro dim s h; cases h
    | cons a l ih =>
      intro dim s h
      simp only [firstFit] at h
      split at h
      · cases h; simp
      · exact List.mem_cons_of_mem _ (ih h)
  have hb : ∀ {l : List Nat} {M dim s : Nat}, (∀ t ∈ l, t ≤ M) → firstFit dim l = some s → dim ≤ M := by
    intro l M dim s hM h
    have := firstFit_le h
    have := hM s (hmem h)
    omega
  unfold LaunchDims
  unfold selectSizes at h
  simp only at h
  split at h
  · unfold selectUniform3 at h
    cases h1 : firstFit (max d.x (max d.y d.z)) sizes3D with
    | none => rw [h1] at h; cases h
    | some s =>
      have := hb (M := 1032) (by decide) h1
      omega
  · split at h
    · rename_i h0 h0'
      unfold selectUniform2 at h
      split at h
      · cases h
      · cases h1 : firstFit (max d.x d.y) sizes2D with
        | none => rw [h1] at h; cases h
        | some s =>
          have := hb (M := 32800) (by decide) h1
          omega
    · unfold selectUniform1 at h
      split at h
      · cases h
      · split at h
        · cases h
        · cases h1 : firstFit d.x sizes1D with
          | none => rw [h1] at h; cases h
          | some s =>
            have := hb (M := 1073741856) (by decide) h1
            omega

example : LaunchDims ⟨100, 200, 300⟩ := C38_default ⟨100, 200, 300⟩ ⟨512, 512, 512⟩ rfl

/-- C38 is false: if one of the dimensions exceeds the limits, then no thread starts, and no error is reported. -/
theorem C38_false : startedCoords ⟨1, 1, 65536⟩ = [] ∧ startedCoords ⟨1, 4 * 65535 + 1, 1⟩ = [] := by
  constructor
  · unfold startedCoords started threads
    rw [if_neg (by decide)]
    rfl
  · unfold startedCoords started threads
    rw [if_neg (by decide)]
    rfl

/-- C38 is false for all dimensions beyond the limits: no thread starts at all. -/
theorem C38_false_none (d : Ext) (hx : d.x < 2 ^ 31) (hy : d.y < 2 ^ 31) (hz : d.z < 2 ^ 31) (hd : ¬ LaunchDims d) :
    startedCoords d = [] := by
  unfold startedCoords started threads
  rw [if_neg, List.map_nil]
  rw [toInt32_ofNat hx, toInt32_ofNat hy, toInt32_ofNat hz]
  have hd' : 4 * 65535 < d.y ∨ 65535 < d.z := by
    unfold LaunchDims at hd
    omega
  have go : ∀ (bx by_ : Nat), (bx = 128 ∧ by_ = 4 ∨ bx = 512 ∧ by_ = 1 ∧ d.y < 4) →
      ¬ Launchable ⟨toU32 (divRoundUp d.x bx), toU32 (divRoundUp d.y by_), toU32 (divRoundUp d.z 1)⟩ ⟨bx, by_, 1⟩ = true := by
    intro bx by_ hb
    have e3 : (1 : Int) = ((1 : Nat) : Int) := rfl
    rw [e3, divRoundUp_ok (by omega), divRoundUp_ok (by omega), divRoundUp_ok (by omega)]
    have l1 : (d.x + bx - 1) / bx < 2 ^ 32 := by rcases hb with ⟨rfl, rfl⟩ | ⟨rfl, rfl, _⟩ <;> omega
    have l2 : (d.y + by_ - 1) / by_ < 2 ^ 32 := by rcases hb with ⟨rfl, rfl⟩ | ⟨rfl, rfl, _⟩ <;> omega
    rw [toU32_ofNat l1, toU32_ofNat l2, toU32_ofNat (by omega)]
    unfold Launchable
    simp only [Bool.and_eq_true, decide_eq_true_eq]
    rcases hb with ⟨rfl, rfl⟩ | ⟨rfl, rfl, _⟩ <;> omega
  unfold launchConfig
  dsimp only
  split
  · exact go 128 4 (.inl ⟨rfl, rfl⟩)
  · exact go 512 1 (.inr ⟨rfl, rfl, by omega⟩)

/-- C38: the exact condition for dimensions which an int can hold. -/
theorem C38_iff (d : Ext) (h0 : 0 < d.x ∧ 0 < d.y ∧ 0 < d.z) (hx : d.x < 2 ^ 31) (hy : d.y < 2 ^ 31) (hz : d.z < 2 ^ 31) :
    (∀ x y z, x < d.x → y < d.y → z < d.z → (startedCoords d).count (x, y, z) = 1) ↔ d.y ≤ 4 * 65535 ∧ d.z ≤ 65535 := by
  constructor
  · intro h
    by_cases hd : LaunchDims d
    · exact hd.2
    · have := h 0 0 0 h0.1 h0.2.1 h0.2.2
      rw [C38_false_none d hx hy hz hd] at this
      cases this
  · exact fun h => (C38_partial d ⟨hx, h⟩).1

example := (C38_iff ⟨1000, 77, 3⟩ (by decide) (by decide) (by decide) (by decide)).2 (by decide)

example : ¬ LaunchDims ⟨7, 4, 70000⟩ ∧ startedCoords ⟨7, 4, 70000⟩ = [] := by
  have h : ¬ LaunchDims ⟨7, 4, 70000⟩ := fun h => absurd h.2.2 (by decide)
  exact ⟨h, C38_false_none _ (by decide) (by decide) (by decide) h⟩

/-- The kernels of set, get, load and save: each struct is handled by one thread, threads for other structs do nothing. -/
theorem C38_row {V : Type} [DecidableEq V] (L : Layout V) (e : Ext) (n : Nat) (hn : n < 2 ^ 31) :
    (∀ i, i < n → ((startedCoords ⟨n, 1, 1⟩).map Prod.fst).count i = 1) ∧
    (∀ b t, ¬ tidX b t < n → (∀ cells x y z, setKernel L e 1 cells n x y z b t = []) ∧ (∀ x y z, getKernel L e n x y z b t = []) ∧
      (∀ st x y z off, loadKernel L e n st x y z off b t = []) ∧ (∀ st x y z off, saveKernel L e n st x y z off b t = [])) := by
  refine ⟨fun i hi => ?_, fun b t h => ?_⟩
  · obtain ⟨hl, ⟨hx, hy, hz⟩, bx, by_, bz⟩ :=
      launchConfig_ok (d := ⟨n, 1, 1⟩) ⟨hn, (by decide : 1 ≤ 4 * 65535), (by decide : 1 ≤ 65535)⟩
    have hc : (launchConfig (toInt32 n) (toInt32 1) (toInt32 1)).1.y * (launchConfig (toInt32 n) (toInt32 1) (toInt32 1)).2.y = 1 ∧
        (launchConfig (toInt32 n) (toInt32 1) (toInt32 1)).1.z * (launchConfig (toInt32 n) (toInt32 1) (toInt32 1)).2.z = 1 := by
      constructor <;> rfl
    have ht := threads_coords _ _ hl hx hy hz
    dsimp only at ht bx
    rw [hc.1, hc.2, cellList_row] at ht
    unfold startedCoords started
    dsimp only
    rw [ht, List.map_map]
    rw [show (Prod.fst ∘ fun x : Nat => ((x, 0, 0) : Nat × Nat × Nat)) = id from rfl, List.map_id]
    exact List.count_eq_one_of_mem List.nodup_range (List.mem_range.2 (by omega))
  · unfold setKernel getKernel loadKernel saveKernel
    dsimp only
    have h' : tidX b t ≥ n := by omega
    refine ⟨fun _ _ _ _ => ?_, fun _ _ _ => ?_, fun _ _ _ _ _ => ?_, fun _ _ _ _ _ => ?_⟩
    · rw [Nat.mul_one, if_pos h']
    · rw [if_pos h']
    · rw [if_pos h']
    · rw [if_pos h']

/-! ### C39 -/
section
variable {V : Type} [DecidableEq V]

theorem launch_exists {σ ω : Type} (exec : ω → σ → Except UB σ) (g b : Dim3) (kernel : Dim3 → Thread → List ω) (s : σ) :
    ∃ r, Launch exec g b kernel s r :=
  ⟨_, _, Interleave.sequential [] (by simp) _, rfl⟩

/-- C39 for construct: each schedule of the threads yields the memory which the host functor yields. Missing: dimensions beyond the
    limits for launches (C39_false). -/
theorem C39_construct_partial (L : Layout V) (hL : L.WF) (d e : Ext) (hd : d.Fits e) (hl : LaunchDims d) (b b' : Block V)
    (h : constructFunctor L d e b = .ok b') :
    (∃ r, constructCuda L d e b r) ∧ ∀ r, constructCuda L d e b r → r = .ok b' :=
  ⟨launch_exists _ _ _ _ _, fun _ hr => constructCuda_ok hL hd hl h hr⟩

/-- C39 for destroy. -/
theorem C39_destroy_partial (L : Layout V) (hL : L.WF) (d e : Ext) (hd : d.Fits e) (hl : LaunchDims d) (b b' : Block V)
    (h : destroyFunctor L d e b = .ok b') :
    (∃ r, destroyCuda L d e b r) ∧ ∀ r, destroyCuda L d e b r → r = .ok b' :=
  ⟨launch_exists _ _ _ _ _, fun _ hr => destroyCuda_ok hL hd hl h hr⟩

/-- C39 for set. -/
theorem C39_set_partial (L : Layout V) (hL : L.WF) (e : Ext) (cells : List (Cell V)) (x y z count : Nat)
    (hin : lin e x y z + count ≤ e.prod) (hc : count < 2 ^ 31) (b b' : Block V)
    (h : setFunctor L e 1 cells x y z count b = .ok b') :
    (∃ r, setCuda L e 1 cells x y z count b r) ∧ ∀ r, setCuda L e 1 cells x y z count b r → r = .ok b' :=
  ⟨launch_exists _ _ _ _ _, fun _ hr => setCuda_ok hL hin hc h hr⟩

/-- C39 for get: the buffer which gets filled. -/
theorem C39_get_partial (L : Layout V) (e : Ext) (src : Block V) (x y z count : Nat) (hc : count < 2 ^ 31)
    (t t' : List (Cell V)) (h : getFunctor L e src x y z count t = .ok t') :
    (∃ r, getCuda L e src x y z count t r) ∧ ∀ r, getCuda L e src x y z count t r → r = .ok t' :=
  ⟨launch_exists _ _ _ _ _, fun _ hr => getCuda_ok hc h hr⟩

theorem loadCuda_exists (L : Layout V) (e : Ext) (src : Block V) (count : Nat) (ss : List Streak) :
    ∀ off b, ∃ r, loadCuda L e src count ss off b r := by
  induction ss with
  | nil => intro off b; exact ⟨_, rfl⟩
  | cons s ss ih =>
    intro off b
    obtain ⟨r1, h1⟩ := launch_exists (MemOp.exec src) (launchConfig (toInt32 s.len) 1 1).1 (launchConfig (toInt32 s.len) 1 1).2
      (loadKernel L e s.len count s.x s.y s.z off) b
    cases r1 with
    | error u => exact ⟨.error u, .error u, h1, rfl⟩
    | ok b1 =>
      obtain ⟨r, hr⟩ := ih (off + s.len) b1
      exact ⟨r, .ok b1, h1, hr⟩

theorem saveCuda_exists (L : Layout V) (e : Ext) (src : Block V) (count : Nat) (ss : List Streak) :
    ∀ off b, ∃ r, saveCuda L e src count ss off b r := by
  induction ss with
  | nil => intro off b; exact ⟨_, rfl⟩
  | cons s ss ih =>
    intro off b
    obtain ⟨r1, h1⟩ := launch_exists (MemOp.exec src) (launchConfig (toInt32 s.len) 1 1).1 (launchConfig (toInt32 s.len) 1 1).2
      (saveKernel L e s.len count s.x s.y s.z off) b
    cases r1 with
    | error u => exact ⟨.error u, .error u, h1, rfl⟩
    | ok b1 =>
      obtain ⟨r, hr⟩ := ih (off + s.len) b1
      exact ⟨r, .ok b1, h1, hr⟩

/-- C39 for load, with any sequence of streaks. -/
theorem C39_load_partial (L : Layout V) (hL : L.WF) (e : Ext) (src : Block V) (count : Nat) (ss : List Streak) (off : Nat)
    (hs : ∀ s ∈ ss, lin e s.x s.y s.z + s.len ≤ e.prod ∧ s.len < 2 ^ 31) (b b' : Block V)
    (h : loadFunctor L e src count ss off b = .ok b') :
    (∃ r, loadCuda L e src count ss off b r) ∧ ∀ r, loadCuda L e src count ss off b r → r = .ok b' :=
  ⟨loadCuda_exists L e src count ss off b, fun _ hr => loadCuda_ok hL ss hs h hr⟩

/-- C39 for save, with any sequence of streaks whose lengths add up to at most `count`. -/
theorem C39_save_partial (L : Layout V) (e : Ext) (hL : L.WF) (src : Block V) (count : Nat) (ss : List Streak) (off : Nat)
    (hsum : off + (ss.map Streak.len).sum ≤ count) (hs : ∀ s ∈ ss, s.len < 2 ^ 31) (b b' : Block V)
    (h : saveFunctor L e src count ss off b = .ok b') :
    (∃ r, saveCuda L e src count ss off b r) ∧ ∀ r, saveCuda L e src count ss off b r → r = .ok b' :=
  ⟨saveCuda_exists L e src count ss off b, fun _ hr => saveCuda_ok hL ss hsum hs h hr⟩

end

/-! A concrete case: struct { char a; T b[2]; } with a non-trivial T, extent 2 x 2 x 1. -/
namespace CudaDemo

/-- The struct. -/
def L : Layout Int := [⟨⟨1, true⟩, none, 7⟩, ⟨⟨2, false⟩, some 2, -1⟩]

theorem L_WF : L.WF := by
  intro m hm
  simp only [L, List.mem_cons, List.not_mem_nil, or_false] at hm
  rcases hm with rfl | rfl <;> simp [Member.elems]

/-- Fresh memory. -/
def b0 : Block Int := ⟨20, fun _ => .undef⟩

/-- Result, or fresh memory in case of an error. -/
def get! (r : Except UB (Block Int)) : Block Int := match r with | .ok b => b | .error _ => b0

theorem get!_ok {r : Except UB (Block Int)} (h : (match r with | .ok _ => true | .error _ => false) = true) : r = .ok (get! r) := by
  cases r with
  | ok b => rfl
  | error u => cases h

/-- After construction. -/
def b1 : Block Int := get! (constructFunctor L ⟨2, 2, 1⟩ ⟨2, 2, 1⟩ b0)

theorem h1 : constructFunctor L ⟨2, 2, 1⟩ ⟨2, 2, 1⟩ b0 = .ok b1 := get!_ok (by decide)

example : ∀ r, constructCuda L ⟨2, 2, 1⟩ ⟨2, 2, 1⟩ b0 r → r = .ok b1 :=
  (C39_construct_partial L L_WF _ _ ⟨by decide, by decide, by decide⟩ ⟨by decide, by decide, by decide⟩ _ _ h1).2

example : ∀ r, destroyCuda L ⟨2, 2, 1⟩ ⟨2, 2, 1⟩ b1 r → r = .ok (get! (destroyFunctor L ⟨2, 2, 1⟩ ⟨2, 2, 1⟩ b1)) :=
  (C39_destroy_partial L L_WF _ _ ⟨by decide, by decide, by decide⟩ ⟨by decide, by decide, by decide⟩ _ _ (get!_ok (by decide))).2

/-- Two cells. -/
def cells : List (Cell Int) := [fun r k => 10 * r + k, fun r k => 20 * r + k + 1]

/-- After set. -/
def b2 : Block Int := get! (setFunctor L ⟨2, 2, 1⟩ 1 cells 0 1 0 2 b1)

theorem h2 : setFunctor L ⟨2, 2, 1⟩ 1 cells 0 1 0 2 b1 = .ok b2 := get!_ok (by decide)

example : ∀ r, setCuda L ⟨2, 2, 1⟩ 1 cells 0 1 0 2 b1 r → r = .ok b2 :=
  (C39_set_partial L L_WF _ _ _ _ _ _ (by decide) (by decide) _ _ h2).2

/-- Target of get. -/
def t2 : List (Cell Int) := match getFunctor L ⟨2, 2, 1⟩ b2 0 1 0 2 cells with | .ok t => t | .error _ => []

theorem h3 : getFunctor L ⟨2, 2, 1⟩ b2 0 1 0 2 cells = .ok t2 := by
  have : (match getFunctor L ⟨2, 2, 1⟩ b2 0 1 0 2 cells with | .ok _ => true | .error _ => false) = true := by decide
  unfold t2
  cases h : getFunctor L ⟨2, 2, 1⟩ b2 0 1 0 2 cells with
  | ok t => rfl
  | error u => rw [h] at this; cases this

example : ∀ r, getCuda L ⟨2, 2, 1⟩ b2 0 1 0 2 cells r → r = .ok t2 :=
  (C39_get_partial L _ _ _ _ _ _ (by decide) _ _ h3).2

/-- Two streaks: the second cell of the first row, and the second row. -/
def streaks : List Streak := [⟨1, 0, 0, 1⟩, ⟨0, 1, 0, 2⟩]

/-- Buffer for three structs, constructed. -/
def raw0 : Block Int := get! (constructFunctor L ⟨3, 1, 1⟩ ⟨3, 1, 1⟩ b0)

/-- After save. -/
def raw1 : Block Int := get! (saveFunctor L ⟨2, 2, 1⟩ b2 3 streaks 0 raw0)

example : ∀ r, saveCuda L ⟨2, 2, 1⟩ b2 3 streaks 0 raw0 r → r = .ok raw1 :=
  (C39_save_partial L _ L_WF _ _ _ _ (by decide) (by decide) _ _ (get!_ok (by decide))).2

example : ∀ r, loadCuda L ⟨2, 2, 1⟩ raw1 3 streaks 0 b1 r → r = .ok (get! (loadFunctor L ⟨2, 2, 1⟩ raw1 3 streaks 0 b1)) :=
  (C39_load_partial L L_WF _ _ _ _ _ (by decide) _ _ (get!_ok (by decide))).2

end CudaDemo

/-- C39 is false if the dimensions exceed the limits for launches: host code constructs the objects, the CUDA version does not. -/
theorem C39_false : ∃ (L : Layout Int) (d e : Ext) (b b' : Block Int), L.WF ∧ d.Fits e ∧ constructFunctor L d e b = .ok b' ∧
    ∀ r, constructCuda L d e b r → r ≠ .ok b' := by
  let L : Layout Int := [⟨⟨1, true⟩, none, 0⟩]
  let d : Ext := ⟨1, 1, 65536⟩
  let b : Block Int := ⟨65536, fun _ => .undef⟩
  have hL : L.WF := by
    intro m hm
    simp only [L, List.mem_cons, List.not_mem_nil, or_false] at hm
    subst hm
    simp [Member.elems]
  have hd : d.Fits d := ⟨Nat.le_refl _, Nat.le_refl _, Nat.le_refl _⟩
  have hv : View L d.prod b (fun _ _ _ => none) := by
    refine ⟨by show aggSize L * d.prod ≤ 65536; decide, fun r m k i v _ _ _ h => (nomatch h), ?_⟩
    intro r m k i _ _ _ _ j _
    simp [b, MByte.nonTriv]
  obtain ⟨b', h1, _, h3⟩ := (Marks.constructFunctor (L := L) hL hd (c := fun _ _ _ => none) (w := fun r _ _ => (L[r]?).map Member.dflt)
    (fun r m k i hm _ _ => by simp only [hm]; rfl) (fun r m k i hm hk _ _ => rfl)).run hv
  refine ⟨L, d, d, b, b', hL, hd, h1, ?_⟩
  rintro r ⟨sched, hs, rfl⟩ he
  have hth : threads (launchConfig (toInt32 d.x) (toInt32 d.y) (toInt32 d.z)).1 (launchConfig (toInt32 d.x) (toInt32 d.y) (toInt32 d.z)).2 = [] := by
    unfold threads
    rw [if_neg (by decide)]
  rw [hth] at hs
  have := hs.perm
  rw [List.map_nil, List.flatten_nil, List.perm_nil] at this
  subst this
  simp only [runL, Except.ok.injEq] at he
  subst he
  have := h3.hsome 0 ⟨⟨1, true⟩, none, 0⟩ 0 0 0 rfl (by simp [Member.elems]) (by simp [d, Ext.prod]) (by
    unfold mark
    rw [if_pos]
    · rfl
    · unfold BoxKeys InBox
      exact ⟨⟨0, 0, 0, by decide, by decide, by decide, rfl⟩, _, rfl, by decide⟩)
  have := this 0 (by decide)
  simp [b] at this

/-! ### C40 -/
section
variable {V : Type} [DecidableEq V]

/-- C40: broadcast for at most one cell. Missing: more than one cell (C40_false). -/
theorem C40_partial (L : Layout V) (hL : L.WF) (e : Ext) (cell : Cell V) (x y z count : Nat) (hc : count ≤ 1)
    (hin : lin e x y z < e.prod) (b b' : Block V) (h : setFunctor L e 0 [cell] x y z count b = .ok b') :
    (∃ r, setCuda L e 0 [cell] x y z count b r) ∧ ∀ r, setCuda L e 0 [cell] x y z count b r → r = .ok b' := by
  refine ⟨launch_exists _ _ _ _ _, fun r hr => ?_⟩
  by_cases h0 : count = 0
  · subst h0
    obtain ⟨sched, hs, rfl⟩ := hr
    have hp := hs.perm
    have : ((threads (launchConfig (toInt32 0) 1 1).1 (launchConfig (toInt32 0) 1 1).2).map
        (setKernel L e 0 [cell] 0 x y z (launchConfig (toInt32 0) 1 1).2)).flatten = [] := by
      rw [List.flatten_eq_nil_iff]
      intro l hl
      obtain ⟨t, _, rfl⟩ := List.mem_map.1 hl
      unfold setKernel
      dsimp only
      rw [if_pos (by omega)]
    rw [this, List.perm_nil] at hp
    subst hp
    exact h
  · have : count = 1 := by omega
    subst this
    exact broadcastCuda_first hL (by decide) (by decide) hin h hr

/-- C40 is false in all cases with more than one cell: whatever the schedule, only the first cell is written to. -/
theorem C40_false (L : Layout V) (hL : L.WF) (e : Ext) (cell : Cell V) (x y z count : Nat) (hpos : 0 < count) (hc : count < 2 ^ 31)
    (hin : lin e x y z < e.prod) (b b1 : Block V) (h : setFunctor L e 0 [cell] x y z 1 b = .ok b1) :
    (∃ r, setCuda L e 0 [cell] x y z count b r) ∧ ∀ r, setCuda L e 0 [cell] x y z count b r → r = .ok b1 :=
  ⟨launch_exists _ _ _ _ _, fun _ hr => broadcastCuda_first hL hpos hc hin h hr⟩

end

/-- A case in which host and CUDA version differ: broadcast to two cells. -/
theorem C40_false_case : ∃ b2, setFunctor CudaDemo.L ⟨2, 2, 1⟩ 0 [fun r k => 10 * r + k] 0 1 0 2 CudaDemo.b1 = .ok b2 ∧
    (∃ r, setCuda CudaDemo.L ⟨2, 2, 1⟩ 0 [fun r k => 10 * r + k] 0 1 0 2 CudaDemo.b1 r) ∧
    ∀ r, setCuda CudaDemo.L ⟨2, 2, 1⟩ 0 [fun r k => 10 * r + k] 0 1 0 2 CudaDemo.b1 r → r ≠ .ok b2 := by
  refine ⟨CudaDemo.get! (setFunctor CudaDemo.L ⟨2, 2, 1⟩ 0 [fun r k => 10 * r + k] 0 1 0 2 CudaDemo.b1),
    CudaDemo.get!_ok (by decide), ?_⟩
  obtain ⟨h1, h2⟩ := C40_false CudaDemo.L CudaDemo.L_WF ⟨2, 2, 1⟩ (fun r k => 10 * r + k) 0 1 0 2 (by decide) (by decide) (by decide)
    CudaDemo.b1 _ (CudaDemo.get!_ok (by decide))
  refine ⟨h1, fun r hr he => ?_⟩
  have := (h2 r hr).symm.trans he
  simp only [Except.ok.injEq] at this
  have := congrArg (fun b : Block Int => decide (b.get 3 = .frag 0 ⟨1, true⟩ 0)) this
  revert this
  decide

/-! ### C53 -/
section
variable {V : Type} [DecidableEq V]

/-- No byte is written to by two threads. -/
def RaceFree (ts : List (List (MemOp V))) : Prop :=
  ts.Pairwise fun t t' => ∀ o ∈ t, ∀ o' ∈ t', ∀ (a : Int) (s : Nat) (a' : Int) (s' : Nat), o.range = some (a, s) → o'.range = some (a', s') →
    ∀ j : Int, ¬ ((a ≤ j ∧ j < a + s) ∧ (a' ≤ j ∧ j < a' + s'))

theorem RaceFree.of {ts : List (List (MemOp V))} {l : List (MemOp V)} (h : ts.flatten = l) (hl : l.Pairwise Indep) : RaceFree ts := by
  subst h
  refine (List.pairwise_flatten.1 hl).2.imp ?_
  intro t t' htt o ho o' ho' a s a' s' h1 h2 j
  obtain ⟨_, _, h3⟩ := htt o ho o' ho' a s a' s' h1 h2
  omega

/-- C53: the kernels are free of races. Missing: `broadcast` (C53_false_broadcast). -/
theorem C53_races_partial (L : Layout V) (hL : L.WF) (e : Ext) :
    (∀ d : Ext, d.Fits e → LaunchDims d →
      RaceFree ((started d).map (constructKernel L d e (launchConfig (toInt32 d.x) (toInt32 d.y) (toInt32 d.z)).2)) ∧
      RaceFree ((started d).map (destroyKernel L d e (launchConfig (toInt32 d.x) (toInt32 d.y) (toInt32 d.z)).2))) ∧
    (∀ x y z count, count < 2 ^ 31 → lin e x y z + count ≤ e.prod →
      (∀ cells : List (Cell V), count ≤ cells.length →
        RaceFree ((started ⟨count, 1, 1⟩).map (setKernel L e 1 cells count x y z (launchConfig (toInt32 count) 1 1).2))) ∧
      (∀ stride off,
        RaceFree ((started ⟨count, 1, 1⟩).map (loadKernel L e count stride x y z off (launchConfig (toInt32 count) 1 1).2)))) ∧
    (∀ x y z count stride off, count < 2 ^ 31 → off + count ≤ stride →
      RaceFree ((started ⟨count, 1, 1⟩).map (saveKernel L e count stride x y z off (launchConfig (toInt32 count) 1 1).2))) ∧
    (∀ x y z count, count < 2 ^ 31 →
      ((started ⟨count, 1, 1⟩).map (getKernel L e count x y z (launchConfig (toInt32 count) 1 1).2)).Pairwise
        fun t t' => ∀ o ∈ t, ∀ o' ∈ t', (o.j, o.r, o.k) ≠ (o'.j, o'.r, o'.k)) := by
  refine ⟨fun d hd hl => ⟨.of (construct_threads L hl) (constructOps_indep hL hd), .of (destroy_threads L hl) (destroyOps_indep hL hd)⟩,
    fun x y z count hc hin => ⟨fun cells hlen => .of (set_threads L e cells x y z hc) (setOpsAt_indep hL hin fun i hi =>
      ⟨cells[i], List.getElem?_eq_getElem (by omega)⟩), fun stride off => .of (load_threads L e stride x y z off hc) (loadOps_indep hL stride off hin)⟩,
    fun x y z count stride off hc hin => .of (save_threads L e stride x y z off hc) (saveOps_indep hL hin), fun x y z count hc => ?_⟩
  have h1 := get_threads L e x y z hc
  have h2 := getOps_distinct L e x y z count
  dsimp only at h1
  rw [← h1] at h2
  exact (List.pairwise_flatten.1 h2).2

example : RaceFree ((started ⟨2, 2, 1⟩).map (constructKernel CudaDemo.L ⟨2, 2, 1⟩ ⟨2, 2, 1⟩ (launchConfig 2 2 1).2)) :=
  ((C53_races_partial CudaDemo.L CudaDemo.L_WF ⟨2, 2, 1⟩).1 ⟨2, 2, 1⟩ ⟨by decide, by decide, by decide⟩ ⟨by decide, by decide, by decide⟩).1

theorem started_two {count : Nat} (hpos : 0 < count) (hc : count < 2 ^ 31) : ∃ t t' ts, started ⟨count, 1, 1⟩ = t :: t' :: ts := by
  obtain ⟨hl, ⟨hx, hy, hz⟩, bx, by_, bz⟩ := launchConfig_ok (d := ⟨count, 1, 1⟩) ⟨hc, by simp only; omega, by simp only; omega⟩
  have h := congrArg List.length (threads_coords _ _ hl hx hy hz)
  have hlen : ∀ D : Ext, (cellList D).length = D.z * (D.y * D.x) := by
    intro D
    simp [cellList, List.length_flatMap, Nat.mul_comm]
  rw [List.length_map, hlen] at h
  simp only at h bx by_ bz
  have hb : (launchConfig (toInt32 count) (toInt32 1) (toInt32 1)).2.x = 512 := by
    have : toInt32 1 = 1 := by decide
    simp only [launchConfig, this]
    rfl
  have h2 : 2 ≤ (started ⟨count, 1, 1⟩).length := by
    unfold started
    simp only
    rw [h]
    rw [hb] at bx ⊢
    have h512 : 512 ≤ (launchConfig (toInt32 count) (toInt32 1) (toInt32 1)).1.x * 512 := by omega
    have := Nat.mul_le_mul bz (Nat.mul_le_mul by_ h512)
    omega
  match hs : started ⟨count, 1, 1⟩, h2 with
  | t :: t' :: ts, _ => exact ⟨t, t', ts, rfl⟩

/-- C53 is false for `broadcast` (`SOURCE_STRIDE` is zero): at least 512 threads are started, and all of them write to the first cell. They
    write the same values. -/
theorem C53_false_broadcast (L : Layout V) (hL : L.WF) (hne : L ≠ []) (e : Ext) (cell : Cell V) (x y z count : Nat) (hpos : 0 < count)
    (hc : count < 2 ^ 31) :
    ¬ RaceFree ((started ⟨count, 1, 1⟩).map (setKernel L e 0 [cell] count x y z (launchConfig (toInt32 count) 1 1).2)) := by
  obtain ⟨t, t', ts, hs⟩ := started_two hpos hc
  have hk : ∀ bd t, setKernel L e 0 [cell] count x y z bd t = setOps L (accAt e (genIndex e x y z)) cell := by
    intro bd t
    unfold setKernel
    dsimp only
    rw [Nat.mul_zero, if_neg (by omega)]
    simp only [List.getElem?_cons_zero, Nat.add_zero]
  intro h
  rw [hs] at h
  simp only [List.map_cons, hk] at h
  have h1 := (List.pairwise_cons.1 h).1 _ (List.mem_cons_self ..)
  match L, hne, hL, h1 with
  | m :: L', _, hL, h1 =>
    obtain ⟨q1, q2⟩ := hL m (List.mem_cons_self ..)
    have hm : (0, m, 0) ∈ memKeys (m :: L') := by
      unfold memKeys
      rw [List.mem_flatMap]
      exact ⟨(m, 0), by simp [List.zipIdx_cons], List.mem_map.2 ⟨0, List.mem_range.2 q2, rfl⟩⟩
    have ho : MemOp.assign _ m.ty _ ∈ setOps (m :: L') (accAt e (genIndex e x y z)) cell := List.mem_map.2 ⟨(0, m, 0), hm, rfl⟩
    have := h1 _ ho _ ho _ _ _ _ rfl rfl
    exact this _ ⟨⟨Int.le_refl _, by omega⟩, ⟨Int.le_refl _, by omega⟩⟩

example : ¬ RaceFree ((started ⟨3, 1, 1⟩).map (setKernel CudaDemo.L ⟨2, 2, 1⟩ 0 [fun _ _ => 7] 3 0 0 0 (launchConfig (toInt32 3) 1 1).2)) :=
  C53_false_broadcast CudaDemo.L CudaDemo.L_WF (by decide) ⟨2, 2, 1⟩ _ 0 0 0 3 (by decide) (by decide)

end

/-! Cases which meet the hypotheses -/

example := C38_row CudaDemo.L ⟨64, 2, 1⟩ 50 (by decide)
example := C40_partial CudaDemo.L CudaDemo.L_WF ⟨2, 2, 1⟩ (fun r k => 10 * r + k) 1 1 0 1 (by decide) (by decide) CudaDemo.b1 _
  (CudaDemo.get!_ok (by decide))

end LFA
