/-
  C66: collecting interactions in a soa_array and processing these by vectors yields what processing each of them at once yields.
-/
import Verif.BufferKernel
import Verif.SoaArrayProof
import Verif.Props.PairKernel
set_option linter.unusedSectionVars false
namespace LFA.GK
open SV (Expr Entry FEnv Mem Writes Faithful Transfers Reqs lane FOps)
open Thr (Loc Ref InGrid ValueIs InA valA inA_iff)

variable {V : Type} [DecidableEq V] {C : Cfg V} {dv : V} {w : Nat}

/-! ### Scalar code -/

/-- A number which is stored for an interaction. -/
def Buffer.arg (U : Buffer w V) (B : Bits w V) (s : Nat) (i j : Int) (ys : List (BitVec w)) (σ : Loc → V) (v : Nat) : BitVec w :=
  match U.fields[v]? with
  | some (.mem m) => (B.bits (σ (mem s (if m.own then i else j) m.r m.k))).getD 0
  | some (.val k) => ys.getD k 0
  | _ => 0

/-- The interaction is processed at once. -/
def Buffer.now (U : Buffer w V) (B : Bits w V) (F : FOps w) (s : Nat) : SAct w V Unit := fun i j ys p =>
  applyAll B F s U.us i j (U.code.map fun (ex : Expr w) => ex.scalar F (U.arg B s i j ys p.1)) p

/-- Members of particles which the functor reads. -/
def Buffer.Reads (K : Pairs w) (U : Buffer w V) (r k : Nat) : Prop :=
  GK.Reads K U.us r k ∨ ∃ m, Field.mem m ∈ U.fields ∧ m.r = r ∧ m.k = k

/-- Members of particles which the functor reads or writes. -/
def Buffer.Uses (K : Pairs w) (U : Buffer w V) (r k : Nat) : Prop := U.Reads K r k ∨ ∃ u ∈ U.us, u.dst.r = r ∧ u.dst.k = k

/-- The struct suits the functor: numbers are stored in members which can be loaded as vectors from a soa_array with capacity `N`, the indices
    are stored, and statements don't assign to members on which vectors or stored numbers depend. -/
structure Buffer.Fits (K : Pairs w) (U : Buffer w V) (N : Nat) : Prop where
  wf : U.L.WF
  base : w / 8 ∣ U.base
  vars : ∀ ex ∈ U.code, ∀ v ∈ ex.vars, ((∃ m, U.fields[v]? = some (.mem m)) ∨ ∃ k, U.fields[v]? = some (.val k)) ∧
    ∃ m, U.L[v]? = some m ∧ m.ty.size = w / 8 ∧ w / 8 ∣ N * offset U.L v
  i : U.fields[U.i]? = some (.index true) ∧ ∃ m, U.L[U.i]? = some m
  j : U.fields[U.j]? = some (.index false) ∧ ∃ m, U.L[U.j]? = some m
  vals : ∀ k, Field.val k ∈ U.fields → k < K.vals.length
  lanes : ∀ u ∈ U.us, ∀ v ∈ u.code.vars, ∀ k, u.arg v = .val k → k < U.code.length
  apart : ∀ u ∈ U.us, ∀ v ∈ K.vars, ¬ (u.dst.r = (K.src v).r ∧ u.dst.k = (K.src v).k)
  fresh : ∀ u ∈ U.us, ∀ m, Field.mem m ∈ U.fields → ¬ (u.dst.r = m.r ∧ u.dst.k = m.k)

/-! ### Updates -/

theorem applyAll_keep (B : Bits w V) (F : FOps w) (s : Nat) {i j : Int} {ys : List (BitVec w)} {x : Int} {r k : Nat} :
    ∀ (us : List (Upd w)), (∀ u ∈ us, ¬ (u.dst.r = r ∧ u.dst.k = k)) → ∀ p : (Loc → V) × Unit,
      (applyAll B F s us i j ys p).1 (mem s x r k) = p.1 (mem s x r k) := by
  intro us
  induction us with
  | nil => intro _ _; rfl
  | cons u us ih =>
    intro h p
    have := ih (fun u' h' => h u' (by simp [h'])) (u.apply B F s i j ys p.1, ())
    simp only [applyAll, List.foldl_cons] at this ⊢
    rw [this]
    unfold Upd.apply
    rw [if_neg]
    intro he
    simp only [mem, Loc.mk.injEq] at he
    exact h u (by simp) ⟨he.2.2.2.2.1.symm, he.2.2.2.2.2.symm⟩

theorem applyAll_numbers {B : Bits w V} {F : FOps w} {s : Nat} {rng : Int → Prop} {P : Nat → Nat → Prop} (i j : Int) (ys : List (BitVec w)) :
    ∀ (us : List (Upd w)) (p : (Loc → V) × Unit), Numbers B s rng P p.1 → Numbers B s rng P (applyAll B F s us i j ys p).1 := by
  intro us
  induction us with
  | nil => intro _ h; exact h
  | cons u us ih =>
    intro p h
    have := ih (u.apply B F s i j ys p.1, ()) (h.apply i j ys u)
    simpa only [applyAll, List.foldl_cons] using this

/-- A functor which computes as many vectors, from nothing. -/
def Buffer.blank (U : Buffer w V) : Pairs w := ⟨.const 0, .lt, 0, U.code.map fun _ => .const 0, fun _ => ⟨false, 0, 0⟩⟩

theorem blank_vars (U : Buffer w V) : U.blank.vars = [] := by
  unfold Buffer.blank Pairs.vars
  simp [Expr.vars]

theorem execAll_ok (hL : C.L.WF) (B : Bits w V) (base : Nat → Nat) (E : FEnv) (F : FOps w) (hw : 0 < w / 8) {A : One} {W : World V}
    {s : Nat} (hs : Has C W s A.e A.id) {K : Pairs w} {U : Buffer w V} {N : Nat} (hu : U.Fits K N) {rng : Int → Prop}
    (hr : ∀ r k, U.Uses K r k → ∀ x, rng x → Reach C w base A W s x r k) {h : Heap V} {σ : Loc → V} (hG : Good C dv W h σ)
    (hn : Numbers B s rng (U.Reads K) σ) {i j : Int} (hi : rng i) (hj : rng j) (zs : List (BitVec w)) (hz : zs.length = U.code.length) :
    ∃ h', execAll ⟨C.L, B, base, E⟩ F A U.us i j zs (h, ()) = some (h', ()) ∧ Good C dv W h' (applyAll B F s U.us i j zs (σ, ())).1 := by
  have hsub : ∀ r k, GK.Reads U.blank U.us r k → U.Reads K r k := by
    rintro r k (⟨v, hv, -⟩ | h)
    · rw [blank_vars] at hv; cases hv
    · exact Or.inl (Or.inr h)
  have I := direct_implements (dv := dv) hL B base E F hw hs (K := U.blank) (us := U.us) (rng := rng)
    ⟨fun u hu' v hv k hk => by
      have := hu.lanes u hu' v hv k hk
      simpa [Buffer.blank] using this, fun u _ v hv => by rw [blank_vars] at hv; cases hv⟩
    (fun r k hrk x hx => hr r k (by
      rcases hrk with h | h
      · exact Or.inl (hsub r k h)
      · exact Or.inr h) x hx)
  obtain ⟨⟨h', u⟩, k1, k2⟩ := I.step (h, ()) (σ, ()) i j zs (by simp [hz, Buffer.blank]) ⟨hG, fun r k hrk => hn r k (hsub r k hrk)⟩ hi hj
  exact ⟨h', k1, k2.1⟩

/-! ### The buffer -/

/-- What is stored for an interaction. -/
structure Item (V : Type) where
  (i j : Int)
  vs : List V

/-- A stored number. -/
def Item.num (B : Bits w V) (it : Item V) (v : Nat) : BitVec w := (B.bits (it.vs.getD v (B.val 0))).getD 0

/-- The struct. -/
def Item.cell (B : Bits w V) (it : Item V) : Cell V := fun r _ => it.vs.getD r (B.val 0)

/-- A stored interaction is processed. -/
def Item.apply (U : Buffer w V) (B : Bits w V) (F : FOps w) (s : Nat) (σ : Loc → V) (it : Item V) : Loc → V :=
  (applyAll B F s U.us it.i it.j (U.code.map fun (ex : Expr w) => ex.scalar F (it.num B)) (σ, ())).1

/-- The struct holds indices of particles in range, and numbers. -/
structure Item.Ok (U : Buffer w V) (B : Bits w V) (rng : Int → Prop) (it : Item V) : Prop where
  (ri : rng it.i) (rj : rng it.j)
  i : it.vs.getD U.i (B.val 0) = U.ints.val (BitVec.ofInt 32 it.i)
  j : it.vs.getD U.j (B.val 0) = U.ints.val (BitVec.ofInt 32 it.j)
  num : ∀ ex ∈ U.code, ∀ v ∈ ex.vars, (B.bits (it.vs.getD v (B.val 0))).isSome = true

theorem arr_ref {L : Layout V} (hL : L.WF) {N i r : Nat} {m : Member V} (hm : L[r]? = some m) (hi : i < 2 ^ 31) :
    (SArr.acc N (toInt32 i)).userRef L r m 0 = ((N * offset L r + i * m.ty.size : Nat) : Int) := by
  have h0 := hL.elems_pos hm
  have hA : (SArr.acc N (toInt32 i)).At i := by rw [toInt32_small hi]; exact accAt_At _ _
  unfold Acc.userRef
  cases ha : m.arity with
  | none => simp only; rw [Acc.member_slot L hA r m 0 h0]; simp [slot, SArr.acc, accAt, Ext.prod]
  | some n => simp only; rw [Acc.arrayRef_slot L hA r m 0 h0]; simp [slot, SArr.acc, accAt, Ext.prod]

theorem Rep.read {L : Layout V} (hL : L.WF) {a : SArr V} {N : Nat} {l : List (Cell V)} (h : LFA.Rep L a N l) {i : Nat} {c : Cell V}
    (hi : l[i]? = some c) {r : Nat} {m : Member V} (hm : L[r]? = some m) :
    a.data.read ((N * offset L r + i * m.ty.size : Nat) : Int) m.ty = .ok (c r 0) := by
  have hlt : i < l.length := (List.getElem?_eq_some_iff.1 hi).1
  have hb : i < 2 ^ 31 := by have := h.fits; have := h.int; omega
  have h1 := h.peekAt hL hi hm (hL.elems_pos hm)
  have hA : (SArr.acc N (i : Nat)).At i := accAt_At _ _
  rw [h.cap, Acc.arrayRef_slot L hA r m 0 (hL.elems_pos hm)] at h1
  rw [← h1]
  simp [slot, SArr.acc, accAt, Ext.prod]

section
variable {K : Pairs w} {U : Buffer w V} {N : Nat}

theorem index_ok (hL : U.L.WF) {B : Bits w V} {a : SArr V} {items : List (Item V)} (hR : LFA.Rep U.L a N (items.map (Item.cell B)))
    {f r : Nat} {it : Item V} (hf : items[f]? = some it) (hm : ∃ m, U.L[r]? = some m) {x : Int} (h0 : 0 ≤ x) (h1 : x < 2 ^ 31)
    (hx : it.vs.getD r (B.val 0) = U.ints.val (BitVec.ofInt 32 x)) : U.index a f r = some x := by
  obtain ⟨m, hm⟩ := hm
  have hlt : f < items.length := (List.getElem?_eq_some_iff.1 hf).1
  have hb : f < 2 ^ 31 := by have h1 := hR.fits; have h2 := hR.int; rw [List.length_map] at h1; omega
  have := Rep.read hL hR (i := f) (c := it.cell B) (by simp [hf]) hm
  unfold Buffer.index
  simp only [hm]
  rw [arr_ref hL hm hb, hR.cap, this]
  simp only [Item.cell, hx, U.ints.bits_val, Option.map_some]
  rw [BitVec.toInt_ofInt, Int.bmod_def]
  norm_num
  rw [Int.emod_eq_of_lt h0 (by omega), if_pos (by omega)]

theorem bufload_ok (hU : U.Fits K N) {B : Bits w V} {TL : Layout V} {base : Nat → Nat} {E : FEnv} {e : Entry w} {Q : Reqs}
    (T : Transfers e.impl Q E) (hQ : Q.any = 1) (hw : 0 < w / 8) {rng : Int → Prop}
    {a : SArr V} {items : List (Item V)} (hR : LFA.Rep U.L a N (items.map (Item.cell B))) (hI : ∀ it ∈ items, it.Ok U B rng)
    {f : Nat} (hf : f + e.impl.N ≤ items.length) (hN : 0 < e.impl.N) {ex : Expr w} (hex : ex ∈ U.code) {v : Nat} (hv : v ∈ ex.vars) :
    ∃ y, U.load ⟨TL, B, base, E⟩ e a f v = some y ∧
      ∀ l < e.impl.N, lane e.impl y l = ((items[f + l]?).map fun it => it.num B v).getD 0 := by
  obtain ⟨-, m, m1, m2, m3⟩ := hU.vars ex hex v hv
  have hb : f < 2 ^ 31 := by have h1 := hR.fits; have h2 := hR.int; rw [List.length_map] at h1; omega
  obtain ⟨q, hq⟩ : ((w / 8 : Nat) : Int) ∣ U.base + ((N * offset U.L v + f * m.ty.size : Nat) : Int) := by
    rw [m2, ← Int.natCast_add]
    exact Int.natCast_dvd_natCast.2 (Nat.dvd_add hU.base (Nat.dvd_add m3 (Dvd.dvd.mul_left (dvd_refl _) _)))
  have hview : ∀ l < e.impl.N, view B m.ty U.base a.data (q + (l : Nat)) = some (((items[f + l]?).map fun it => it.num B v).getD 0) := by
    intro l hl
    have hlt : f + l < items.length := by omega
    have hit : items[f + l]? = some items[f + l] := List.getElem?_eq_getElem hlt
    have hr := Rep.read hU.wf hR (i := f + l) (c := (items[f + l]).cell B) (by simp [hit]) m1
    have e1 : (q + (l : Nat)) * (w / 8 : Nat) - U.base = ((N * offset U.L v + (f + l) * m.ty.size : Nat) : Int) := by
      have : q * (w / 8 : Nat) = U.base + ((N * offset U.L v + f * m.ty.size : Nat) : Int) := by rw [Int.mul_comm, ← hq]
      rw [Int.add_mul, this, ← m2]
      push_cast
      ring
    unfold view
    rw [e1, hr]
    obtain ⟨x, hx⟩ := Option.isSome_iff_exists.1 ((hI _ (List.getElem_mem hlt)).num ex hex v hv)
    simp only [hit, Option.map_some, Option.getD_some, Item.cell, Item.num, hx]
  obtain ⟨y, k1, k2⟩ := Mode.load_ok T .plain (view B m.ty U.base a.data) q (by simp only [Mode.loadReq, hQ]; exact Int.one_dvd _) fun i hi => by
    rw [hview i hi]; rfl
  refine ⟨y, ?_, fun l hl => ?_⟩
  · unfold Buffer.load
    simp only [m1]
    rw [Buffer.elem, arr_ref hU.wf m1 hb, hR.cap]
    rw [if_pos ⟨m2, ⟨q, hq⟩⟩, hq, Int.mul_ediv_cancel_left _ (by omega), Option.bind_some]
    exact k1
  · have := k2 l hl
    rw [hview l hl] at this
    exact (Option.some.inj this).symm

/-- The loop over the lanes processes the next structs in order. -/
theorem buflanes_ok (hL : C.L.WF) (B : Bits w V) (base : Nat → Nat) (E : FEnv) (F : FOps w) (hw : 0 < w / 8) {A : One} {W : World V}
    {s : Nat} (hs : Has C W s A.e A.id) (hU : U.Fits K N) {rng : Int → Prop} (hrng : ∀ x, rng x → 0 ≤ x ∧ x < 2 ^ 31)
    (hr : ∀ r k, U.Uses K r k → ∀ x, rng x → Reach C w base A W s x r k) {e : Entry w} {D : SV.Cmp e.impl}
    (hD : ∀ v, ∀ i < e.impl.N, D.index E v (BitVec.ofNat 32 i) = some (lane e.impl v i))
    {a : SArr V} {items : List (Item V)} (hR : LFA.Rep U.L a N (items.map (Item.cell B))) (hI : ∀ it ∈ items, it.Ok U B rng)
    {f : Nat} (hf : f + e.impl.N ≤ items.length) (vs : List e.impl.V)
    (hvs : ∀ l < e.impl.N, ∀ it, items[f + l]? = some it →
      vs.map (fun v => lane e.impl v l) = U.code.map fun (ex : Expr w) => ex.scalar F (it.num B)) :
    ∀ (n l : Nat), l + n = e.impl.N → ∀ (h : Heap V) (σ : Loc → V), Good C dv W h σ → Numbers B s rng (U.Reads K) σ →
      ∃ h', U.lanes ⟨C.L, B, base, E⟩ F A D a f vs n l h = some h' ∧
        Good C dv W h' (((items.drop (f + l)).take n).foldl (Item.apply U B F s) σ) ∧
        Numbers B s rng (U.Reads K) (((items.drop (f + l)).take n).foldl (Item.apply U B F s) σ) := by
  intro n
  induction n with
  | zero => intro l _ h σ hG hn; exact ⟨h, rfl, by simpa using hG, by simpa using hn⟩
  | succ n ih =>
    intro l hl h σ hG hn
    have hl' : l < e.impl.N := by omega
    have hlt : f + l < items.length := by omega
    have hit : items[f + l]? = some items[f + l] := List.getElem?_eq_getElem hlt
    have ho := hI _ (List.getElem_mem hlt)
    have hz := hvs l hl' _ hit
    obtain ⟨i0, i1⟩ := hrng _ ho.ri
    obtain ⟨j0, j1⟩ := hrng _ ho.rj
    obtain ⟨h1, k1, k2⟩ := execAll_ok (dv := dv) hL B base E F hw hs hU hr hG hn ho.ri ho.rj (vs.map fun v => lane e.impl v l)
      (by rw [hz, List.length_map])
    have k3 := applyAll_numbers (F := F) items[f + l].i items[f + l].j (vs.map fun v => lane e.impl v l) U.us (σ, ()) hn
    have hap : (applyAll B F s U.us items[f + l].i items[f + l].j (vs.map fun v => lane e.impl v l) (σ, ())).1 =
        Item.apply U B F s σ items[f + l] := by rw [hz]; rfl
    rw [hap] at k2 k3
    obtain ⟨h', k4, k5⟩ := ih (l + 1) (by omega) h1 _ k2 k3
    refine ⟨h', ?_, ?_⟩
    · simp only [Buffer.lanes]
      rw [mapM_some _ (fun v => lane e.impl v l) vs fun v _ => hD v l hl', Option.bind_some, index_ok hU.wf hR hit hU.i.2 i0 i1 ho.i,
        Option.bind_some, index_ok hU.wf hR hit hU.j.2 j0 j1 ho.j, Option.bind_some, k1, Option.bind_some]
      exact k4
    · have : (items.drop (f + l)).take (n + 1) = items[f + l] :: (items.drop (f + (l + 1))).take n := by
        rw [List.drop_eq_getElem_cons hlt, List.take_succ_cons]; rfl
      rw [this, List.foldl_cons]
      exact k5

theorem bufbody_ok (hL : C.L.WF) (B : Bits w V) (base : Nat → Nat) (E : FEnv) (F : FOps w) (hw : 0 < w / 8) {A : One} {W : World V}
    {s : Nat} (hs : Has C W s A.e A.id) (hU : U.Fits K N) {rng : Int → Prop} (hrng : ∀ x, rng x → 0 ≤ x ∧ x < 2 ^ 31)
    (hr : ∀ r k, U.Uses K r k → ∀ x, rng x → Reach C w base A W s x r k) {e : Entry w} {Q : Reqs} {d f c : Bool}
    (H : Faithful e.impl e.cmp E F d f c) (T : Transfers e.impl Q E) (hQ : Q.any = 1) (hT : Tests e E F) (hN : 0 < e.impl.N)
    (hc : ∀ ex ∈ U.code, ex.only d f c = true)
    {a : SArr V} {items : List (Item V)} (hR : LFA.Rep U.L a N (items.map (Item.cell B))) (hI : ∀ it ∈ items, it.Ok U B rng)
    {q : Nat} (hq : q + e.impl.N ≤ items.length) {h : Heap V} {σ : Loc → V} (hG : Good C dv W h σ) (hn : Numbers B s rng (U.Reads K) σ) :
    ∃ h', U.body ⟨C.L, B, base, E⟩ F A e a q h = some h' ∧
      Good C dv W h' (((items.drop q).take e.impl.N).foldl (Item.apply U B F s) σ) ∧
      Numbers B s rng (U.Reads K) (((items.drop q).take e.impl.N).foldl (Item.apply U B F s) σ) := by
  obtain ⟨D, hD, -, hidx⟩ := hT
  obtain ⟨vs, v1, v2⟩ := mapM_ex (fun ex : Expr w => ex.vec e.impl e.cmp E (U.load ⟨C.L, B, base, E⟩ e a q))
    (fun ex y => ∀ l < e.impl.N, lane e.impl y l = ex.scalar F fun v => ((items[q + l]?).map fun it => it.num B v).getD 0) U.code fun ex hex =>
      H.vec _ _ ex (hc ex hex) fun v hv => bufload_ok hU T hQ hw hR hI hq hN hex hv
  have hvs : ∀ l < e.impl.N, ∀ it, items[q + l]? = some it →
      vs.map (fun v => lane e.impl v l) = U.code.map fun (ex : Expr w) => ex.scalar F (it.num B) := by
    intro l hl it hit
    have : ∀ (xs : List (Expr w)) (ys : List e.impl.V), List.Forall₂ (fun ex y => ∀ l < e.impl.N, lane e.impl y l =
        ex.scalar F fun v => ((items[q + l]?).map fun it => it.num B v).getD 0) xs ys →
        ys.map (fun v => lane e.impl v l) = xs.map fun (ex : Expr w) => ex.scalar F (it.num B) := by
      intro xs ys h
      induction h with
      | nil => rfl
      | cons hxy _ ih =>
        rw [List.map_cons, List.map_cons, hxy l hl, ih, hit]
        rfl
    exact this _ _ v2
  obtain ⟨h', k1, k2⟩ := buflanes_ok (dv := dv) hL B base E F hw hs hU hrng hr hidx hR hI hq vs hvs e.impl.N 0 (by omega) h σ hG hn
  refine ⟨h', ?_, by simpa using k2⟩
  unfold Buffer.body
  simp only [v1, Option.bind_some]
  rw [hD, Option.bind_some]
  exact k1

/-- The loop processes all structs in order, if their number is a multiple of the arity. -/
theorem bufloop_ok (hL : C.L.WF) (B : Bits w V) (base : Nat → Nat) (E : FEnv) (F : FOps w) (hw : 0 < w / 8) {A : One} {W : World V}
    {s : Nat} (hs : Has C W s A.e A.id) (hU : U.Fits K N) {rng : Int → Prop} (hrng : ∀ x, rng x → 0 ≤ x ∧ x < 2 ^ 31)
    (hr : ∀ r k, U.Uses K r k → ∀ x, rng x → Reach C w base A W s x r k) {e : Entry w} {Q : Reqs} {d f c : Bool}
    (H : Faithful e.impl e.cmp E F d f c) (T : Transfers e.impl Q E) (hQ : Q.any = 1) (hT : Tests e E F) (hN : 0 < e.impl.N)
    (hc : ∀ ex ∈ U.code, ex.only d f c = true)
    {a : SArr V} {items : List (Item V)} (hR : LFA.Rep U.L a N (items.map (Item.cell B))) (hI : ∀ it ∈ items, it.Ok U B rng) :
    ∀ (k q : Nat), q ≤ items.length → items.length - q ≤ k → e.impl.N ∣ items.length - q → ∀ (h : Heap V) (σ : Loc → V), Good C dv W h σ →
      Numbers B s rng (U.Reads K) σ →
      ∃ h', U.loop ⟨C.L, B, base, E⟩ F A e a k q h = some h' ∧ Good C dv W h' ((items.drop q).foldl (Item.apply U B F s) σ) ∧
        Numbers B s rng (U.Reads K) ((items.drop q).foldl (Item.apply U B F s) σ) := by
  have hlen : a.n = items.length := by rw [hR.len, List.length_map]
  intro k
  induction k with
  | zero =>
    intro q hq hk _ h σ hG hn
    refine ⟨h, ?_, ?_⟩
    · simp only [Buffer.loop]; rw [if_neg (by omega)]
    · rw [List.drop_of_length_le (by omega)]; exact ⟨hG, hn⟩
  | succ k ih =>
    intro q hq hk hd h σ hG hn
    by_cases hlt : q < items.length
    · have hge := Nat.le_of_dvd (by omega) hd
      obtain ⟨h1, b1, b2, b3⟩ := bufbody_ok (dv := dv) hL B base E F hw hs hU hrng hr H T hQ hT hN hc hR hI (q := q) (by omega) hG hn
      obtain ⟨h', k1, k2⟩ := ih (q + e.impl.N) (by omega) (by omega)
        (by rw [show items.length - (q + e.impl.N) = items.length - q - e.impl.N by omega]; exact Nat.dvd_sub hd (dvd_refl _)) h1 _ b2 b3
      refine ⟨h', ?_, ?_⟩
      · simp only [Buffer.loop]
        rw [if_pos (by omega), b1, Option.bind_some, k1]
      · have : items.drop q = (items.drop q).take e.impl.N ++ items.drop (q + e.impl.N) := by
          rw [← List.drop_drop, List.take_append_drop]
        rw [this, List.foldl_append]
        exact k2
    · refine ⟨h, ?_, ?_⟩
      · simp only [Buffer.loop]; rw [if_neg (by omega)]
      · rw [List.drop_of_length_le (by omega)]; exact ⟨hG, hn⟩

theorem handle_ok (hL : C.L.WF) (B : Bits w V) (base : Nat → Nat) (E : FEnv) (F : FOps w) (hw : 0 < w / 8) {A : One} {W : World V}
    {s : Nat} (hs : Has C W s A.e A.id) (hU : U.Fits K N) {rng : Int → Prop} (hrng : ∀ x, rng x → 0 ≤ x ∧ x < 2 ^ 31)
    (hr : ∀ r k, U.Uses K r k → ∀ x, rng x → Reach C w base A W s x r k) {e : Entry w} {Q : Reqs} {d f c : Bool}
    (H : Faithful e.impl e.cmp E F d f c) (T : Transfers e.impl Q E) (hQ : Q.any = 1) (hT : Tests e E F) (hN : 0 < e.impl.N)
    (hc : ∀ ex ∈ U.code, ex.only d f c = true)
    {a : SArr V} {items : List (Item V)} (hR : LFA.Rep U.L a N (items.map (Item.cell B))) (hI : ∀ it ∈ items, it.Ok U B rng)
    (hd : e.impl.N ∣ items.length) {h : Heap V} {σ : Loc → V} (hG : Good C dv W h σ) (hn : Numbers B s rng (U.Reads K) σ) :
    ∃ h' a', U.handle ⟨C.L, B, base, E⟩ F A e (h, a) = some (h', a') ∧ Good C dv W h' (items.foldl (Item.apply U B F s) σ) ∧
      Numbers B s rng (U.Reads K) (items.foldl (Item.apply U B F s) σ) ∧ LFA.Rep U.L a' N [] := by
  have hlen : a.n = items.length := by rw [hR.len, List.length_map]
  obtain ⟨h', k1, k2, k3⟩ := bufloop_ok (dv := dv) hL B base E F hw hs hU hrng hr H T hQ hT hN hc hR hI items.length 0 (by omega) (by omega)
    hd h σ hG hn
  have ht := hR.take (n := 0) (by omega)
  refine ⟨h', ⟨a.N, 0, a.data⟩, ?_, by simpa using k2, by simpa using k3, by simpa using ht⟩
  unfold Buffer.handle
  simp only [hlen, k1, Option.map_some]

/-! ### Collecting -/

/-- Memory and buffer hold what the scalar code computed: the interactions in the buffer have not been processed yet. -/
def Pending (C : Cfg V) (dv : V) (B : Bits w V) (F : FOps w) (W : World V) (s : Nat) (K : Pairs w) (U : Buffer w V) (N : Nat)
    (rng : Int → Prop) (st : Heap V × SArr V) (p : (Loc → V) × Unit) : Prop :=
  ∃ (σ : Loc → V) (items : List (Item V)), Good C dv W st.1 σ ∧ Numbers B s rng (U.Reads K) σ ∧ p.1 = items.foldl (Item.apply U B F s) σ ∧
    LFA.Rep U.L st.2 N (items.map (Item.cell B)) ∧ items.length < N ∧ ∀ it ∈ items, it.Ok U B rng

theorem items_keep (B : Bits w V) (F : FOps w) (s : Nat) {x : Int} {r k : Nat} (h : ∀ u ∈ U.us, ¬ (u.dst.r = r ∧ u.dst.k = k)) :
    ∀ (items : List (Item V)) (σ : Loc → V), items.foldl (Item.apply U B F s) σ (mem s x r k) = σ (mem s x r k) := by
  intro items
  induction items with
  | nil => intro _; rfl
  | cons it items ih => intro σ; rw [List.foldl_cons, ih]; exact applyAll_keep B F s U.us h _

theorem items_numbers {B : Bits w V} {F : FOps w} {s : Nat} {rng : Int → Prop} {P : Nat → Nat → Prop} :
    ∀ (items : List (Item V)) (σ : Loc → V), Numbers B s rng P σ → Numbers B s rng P (items.foldl (Item.apply U B F s) σ) := by
  intro items
  induction items with
  | nil => intro _ h; exact h
  | cons it items ih => intro σ h; exact ih _ (applyAll_numbers _ _ _ _ _ h)

theorem mapM_get {α β : Type} (f : α → Option β) : ∀ (l : List α), (∀ x ∈ l, (f x).isSome = true) →
    ∃ ys, l.mapM f = some ys ∧ ys.length = l.length ∧ ∀ (n : Nat) (x : α), l[n]? = some x → ys[n]? = f x := by
  intro l
  induction l with
  | nil => intro _; exact ⟨[], rfl, rfl, fun n x h => by simp at h⟩
  | cons x l ih =>
    intro h
    obtain ⟨y, hy⟩ := Option.isSome_iff_exists.1 (h x (by simp))
    obtain ⟨ys, h1, h2, h3⟩ := ih fun z hz => h z (by simp [hz])
    refine ⟨y :: ys, by simp [List.mapM_cons, hy, h1], by simp [h2], fun n z hz => ?_⟩
    cases n with
    | zero => simp at hz; subst hz; simp [hy]
    | succ n => simpa using h3 n z (by simpa using hz)

theorem pending_implements (hL : C.L.WF) (B : Bits w V) (base : Nat → Nat) (E : FEnv) (F : FOps w) (hw : 0 < w / 8) {A : One} {W : World V}
    {s : Nat} (hs : Has C W s A.e A.id) {rng : Int → Prop} (hrng : ∀ x, rng x → 0 ≤ x ∧ x < 2 ^ 31)
    (hr : ∀ r k, U.Uses K r k → ∀ x, rng x → Reach C w base A W s x r k) {e : Entry w} (hU : U.Fits K e.impl.N) {Q : Reqs} {d f c : Bool}
    (H : Faithful e.impl e.cmp E F d f c) (T : Transfers e.impl Q E) (hQ : Q.any = 1) (hT : Tests e E F) (hN : 0 < e.impl.N)
    (hc : ∀ ex ∈ U.code, ex.only d f c = true) :
    Implements C dv B W s K rng (Pending C dv B F W s K U e.impl.N rng) (U.collect ⟨C.L, B, base, E⟩ F A e) (U.now B F s) where
  good := by
    rintro st p ⟨σ, items, hG, hn, hp, -⟩
    refine ⟨σ, hG, fun v hv x _ => ?_⟩
    rw [hp, items_keep B F s (fun u hu => hU.apart u hu v hv)]
  num := by
    rintro st p ⟨σ, items, hG, hn, hp, -⟩ v hv x hx
    rw [hp]
    exact items_numbers items σ hn _ _ (Or.inl (Or.inl ⟨v, hv, rfl, rfl⟩)) x hx
  keep := by
    intro i j ys p _ _ v hv x _
    exact applyAll_keep B F s U.us (fun u hu => hU.apart u hu v hv) p
  step := by
    rintro st p i j ys hys ⟨σ, items, hG, hn, hp, hR, hlt, hI⟩ hi hj
    have hij : ∀ b : Bool, rng (if b then i else j) := fun b => by split <;> assumption
    -- the arguments of the constructor
    have hget : ∀ fd ∈ U.fields, (fd.get ⟨C.L, B, base, E⟩ U A i j ys st.1) = some (match fd with
        | .mem m => B.val ((B.bits (σ (mem s (if m.own then i else j) m.r m.k))).getD 0)
        | .val k => B.val (ys.getD k 0)
        | .index own => U.ints.val (BitVec.ofInt 32 (if own then i else j))) := by
      intro fd hfd
      cases fd with
      | mem m =>
        have hrd : U.Reads K m.r m.k := Or.inr ⟨m, hfd, rfl, rfl⟩
        simp only [Field.get]
        rw [fetch_ok hL B base E hw hs hG (hr _ _ (Or.inl hrd) _ (hij _))]
        obtain ⟨x, hx⟩ := Option.isSome_iff_exists.1 (hn _ _ hrd _ (hij m.own))
        rw [hx]; rfl
      | val k =>
        have := hU.vals k hfd
        rw [← hys] at this
        simp [Field.get, List.getD, this]
      | index own => rfl
    obtain ⟨vs, v1, -, v2⟩ := mapM_get (Field.get ⟨C.L, B, base, E⟩ U A i j ys st.1) U.fields fun fd hfd => by rw [hget fd hfd]; rfl
    have hnum : ∀ ex ∈ U.code, ∀ v ∈ ex.vars, B.bits (vs.getD v (B.val 0)) = some (U.arg B s i j ys p.1 v) := by
      intro ex hex v hv
      rcases (hU.vars ex hex v hv).1 with ⟨m, hm⟩ | ⟨k, hk⟩
      · have := v2 v _ hm
        rw [hget _ (List.mem_of_getElem? hm)] at this
        simp only [List.getD, this, Option.getD_some, Buffer.arg, hm, B.bits_val]
        rw [hp, items_keep B F s (fun u hu => hU.fresh u hu m (List.mem_of_getElem? hm))]
      · have := v2 v _ hk
        rw [hget _ (List.mem_of_getElem? hk)] at this
        simp only [List.getD, this, Option.getD_some, Buffer.arg, hk, B.bits_val]
    let it : Item V := ⟨i, j, vs⟩
    have hit : it.Ok U B rng := by
      refine ⟨hi, hj, ?_, ?_, fun ex hex v hv => ?_⟩
      · have := v2 _ _ hU.i.1
        rw [hget _ (List.mem_of_getElem? hU.i.1)] at this
        show vs.getD U.i (B.val 0) = U.ints.val (BitVec.ofInt 32 i)
        simp only [List.getD, this, Option.getD_some, if_true]
      · have := v2 _ _ hU.j.1
        rw [hget _ (List.mem_of_getElem? hU.j.1)] at this
        show vs.getD U.j (B.val 0) = U.ints.val (BitVec.ofInt 32 j)
        simp only [List.getD, this, Option.getD_some, Bool.false_eq_true, if_false]
      · show (B.bits (vs.getD v (B.val 0))).isSome = true
        rw [hnum ex hex v hv]; rfl
    have hnow : (U.now B F s i j ys p).1 = (items ++ [it]).foldl (Item.apply U B F s) σ := by
      rw [List.foldl_append, ← hp]
      show (applyAll B F s U.us i j _ p).1 = (applyAll B F s U.us i j _ (p.1, ())).1
      have : (U.code.map fun (ex : Expr w) => ex.scalar F (U.arg B s i j ys p.1)) = U.code.map fun (ex : Expr w) => ex.scalar F (it.num B) := by
        refine List.map_congr_left fun ex hex => SV.Expr.scalar_congr F ex fun v hv => ?_
        show _ = (B.bits (vs.getD v (B.val 0))).getD 0
        rw [hnum ex hex v hv]; rfl
      rw [this]
    have hok : ∀ x ∈ items ++ [it], x.Ok U B rng := by
      intro x hx
      rcases List.mem_append.1 hx with hx | hx
      · exact hI x hx
      · rw [List.mem_singleton.1 hx]; exact hit
    obtain ⟨a', p1, p2⟩ := hR.pushBack hU.wf (by rw [List.length_map]; exact hlt) (it.cell B)
    have p3 : LFA.Rep U.L a' e.impl.N ((items ++ [it]).map (Item.cell B)) := by simpa using p2
    have hcol : U.collect ⟨C.L, B, base, E⟩ F A e i j ys st =
        if a'.n = a'.N then U.handle ⟨C.L, B, base, E⟩ F A e (st.1, a') else some (st.1, a') := by
      unfold Buffer.collect
      rw [v1, Option.bind_some]
      show (match SArr.push U.L st.2 (it.cell B) with | .ok _ a => _ | _ => none) = _
      rw [p1]
    have hn' : a'.n = items.length + 1 := by rw [p3.len]; simp
    by_cases hfull : a'.n = a'.N
    · rw [hcol, if_pos hfull]
      obtain ⟨h', a'', k1, k2, k3, k4⟩ := handle_ok (dv := dv) hL B base E F hw hs hU hrng hr H T hQ hT hN hc p3 hok
        (by rw [← List.length_map (f := Item.cell B), ← p3.len, hfull, p3.cap]) hG hn
      exact ⟨(h', a''), k1, _, [], k2, k3, hnow, by simpa using k4, by simpa using hN, fun _ h => (nomatch h)⟩
    · rw [hcol, if_neg hfull]
      rw [p3.cap] at hfull
      refine ⟨_, rfl, σ, items ++ [it], hG, hn, hnow, p3, ?_, hok⟩
      rw [List.length_append, List.length_singleton]
      omega

/-! ### The functor -/

theorem new_empty {L : Layout V} (hL : L.WF) (dv : V) {N : Nat} (hN : N < 2 ^ 31) (c0 : Cell V) : ∃ a, SArr.new L N 0 c0 = .ok a ∧ LFA.Rep L a N [] := by
  obtain ⟨b, c1, c2, c3⟩ := SArr.constructAll_ok hL dv N
  refine ⟨⟨N, 0, b⟩, ?_, rfl, rfl, Nat.zero_le _, hN, c2, _, c3, fun i hi => absurd hi (Nat.not_lt_zero i)⟩
  unfold SArr.new
  rw [c1]
  rfl

theorem functor_ok (hL : C.L.WF) (B : Bits w V) (base : Nat → Nat) (E : FEnv) (F : FOps w) {K : Pairs w} {U : Buffer w V} (c0 : Cell V)
    {e1 e : Entry w} (hU : U.Fits K e.impl.N)
    {Q1 Q : Reqs} {d f c : Bool} (H1 : Faithful e1.impl e1.cmp E F d f c) (H : Faithful e.impl e.cmp E F d f c)
    (T1 : Transfers e1.impl Q1 E) (T : Transfers e.impl Q E) (hQ1 : Q1.any = 1) (hQ : Q.any = 1) (hT1 : Tests e1 E F) (hT : Tests e E F)
    (h1 : e1.impl.N = 1) (hk : K.test.only d f c = true) (hks : ∀ ex ∈ K.vals, ex.only d f c = true) (hc : ∀ ex ∈ U.code, ex.only d f c = true)
    (hw : 0 < w / 8) (hN : 0 < e.impl.N) (hN' : e.impl.N < 2 ^ 31)
    {t : Counters} {n : Nat} (ht : t.Ok e.impl.N n) {A : One} {W : World V} {s : Nat}
    {dm : Ext} (hx : w / 8 ∣ A.e.x * A.e.y * A.e.z) (hb : w / 8 ∣ base A.id) (hs : Has C W s A.e A.id)
    (hds : DimsAre C W s dm) (hdx : pairEnd e.impl.N n ≤ dm.x) (hdy : 0 < dm.y) (hdz : 0 < dm.z) (hint : pairEnd e.impl.N n ≤ 2 ^ 31)
    (hm : ∀ r k, U.Uses K r k → ∃ m, C.L[r]? = some m ∧ m.ty.size = w / 8 ∧ k < m.elems)
    {h : Heap V} {σ : Loc → V} (hG : Good C dv W h σ)
    (hnum : Numbers B s (fun x => 0 ≤ x ∧ x < pairEnd e.impl.N n) (U.Reads K) σ) :
    ∃ h', U.functor ⟨C.L, B, base, E⟩ F K c0 t e1 e n A h = some h' ∧
      Good C dv W h' (K.all B F s (U.now B F s) n (pairStop e.impl.N n) (σ, ())).1 := by
  have hr : ∀ r k, U.Uses K r k → ∀ x : Int, (0 ≤ x ∧ x < pairEnd e.impl.N n) → Reach C w base A W s x r k := fun r k hrk x hx' =>
    reach hds hb hx hdy hdz (hm r k hrk) hx'.1 (by omega)
  have hrng : ∀ x : Int, (0 ≤ x ∧ x < pairEnd e.impl.N n) → 0 ≤ x ∧ x < 2 ^ 31 := fun x h => ⟨h.1, by omega⟩
  obtain ⟨a, a1, a2⟩ := new_empty hU.wf dv hN' c0
  obtain ⟨⟨h', a'⟩, k1, σ', items, g1, g2, g3, g4, g5, g6⟩ := search_ok hL B base E F H1 H T1 T hQ1 hQ hT1 hT h1 hk hks hw hN hs
    (fun v hv x hx' => hr _ _ (Or.inl (Or.inl (Or.inl ⟨v, hv, rfl, rfl⟩))) x hx')
    (pending_implements (dv := dv) hL B base E F hw hs hrng hr hU H T hQ hT hN hc) t n _ (scans hN ht)
    (fun i i0 i1 => ⟨⟨i0, (pairEnd_rng hN i i1).1⟩, fun j j0 j1 => ⟨by omega, (pairEnd_rng hN i i1).2 j j1⟩⟩) (h, a) (σ, ())
    ⟨σ, [], hG, hnum, rfl, by simpa using a2, hN, fun _ h => (nomatch h)⟩
  obtain ⟨h'', a'', b1, b2, b3, b4⟩ := handle_ok (dv := dv) hL B base E F hw hs hU hrng hr H1 T1 hQ1 hT1 (by omega) hc g4 g6
    (by rw [h1]; exact one_dvd _) g1 g2
  obtain ⟨b', d1, -⟩ := SArr.dtor_ok hU.wf b4.size b4.cells.choose_spec.1 (n := a''.n)
  have hcap : a'' = ⟨e.impl.N, a''.n, a''.data⟩ := by cases a''; simp [b4.cap.symm]
  refine ⟨h'', ?_, by rw [g3]; exact b2⟩
  unfold Buffer.functor
  rw [a1]
  simp only [k1, Option.bind_some, b1]
  rw [hcap, d1]

theorem buffered_ok (hL : C.L.WF) (B : Bits w V) (base : Nat → Nat) (E : FEnv) (F : FOps w) {K : Pairs w} {U : Buffer w V} (c0 : Cell V)
    {e1 e : Entry w} (hU : U.Fits K e.impl.N)
    {Q1 Q : Reqs} {d f c : Bool} (H1 : Faithful e1.impl e1.cmp E F d f c) (H : Faithful e.impl e.cmp E F d f c)
    (T1 : Transfers e1.impl Q1 E) (T : Transfers e.impl Q E) (hQ1 : Q1.any = 1) (hQ : Q.any = 1) (hT1 : Tests e1 E F) (hT : Tests e E F)
    (h1 : e1.impl.N = 1) (hk : K.test.only d f c = true) (hks : ∀ ex ∈ K.vals, ex.only d f c = true) (hc : ∀ ex ∈ U.code, ex.only d f c = true)
    (hw : 0 < w / 8) (hN : 0 < e.impl.N) (hN' : e.impl.N < 2 ^ 31)
    {t : Counters} {n : Nat} (ht : t.Ok e.impl.N n) {W : World V} (hV : Valid C dv W) {s : Nat}
    {dm ext : Ext} (hd : selectSizes C.tr dm = .ok ext) (hx : w / 8 ∣ ext.x * ext.y * ext.z) (hb : ∀ id, w / 8 ∣ base id)
    (hds : DimsAre C W s dm) (hdx : pairEnd e.impl.N n ≤ dm.x) (hdy : 0 < dm.y) (hdz : 0 < dm.z) (hint : pairEnd e.impl.N n ≤ 2 ^ 31)
    (hm : ∀ r k, U.Uses K r k → ∃ m, C.L[r]? = some m ∧ m.ty.size = w / 8 ∧ k < m.elems)
    {σ : Loc → V} (hσ : ∀ l, InGrid C W l → ValueIs C W l (σ l))
    (hnum : Numbers B s (fun x => 0 ≤ x ∧ x < pairEnd e.impl.N n) (U.Reads K) σ) :
    Yields C dv W (K.all B F s (U.now B F s) n (pairStop e.impl.N n) (σ, ())).1 (buffered C B base E F K U c0 t e1 e n W s) :=
  runFunctor_ok hL hV hd hds (by rintro rfl; simp at hdy) hσ fun A hA hs hG =>
    functor_ok hL B base E F c0 hU H1 H T1 T hQ1 hQ hT1 hT h1 hk hks hc hw hN hN' ht (by rw [hA]; exact hx) (hb _) hs hds hdx hdy hdz hint hm hG hnum

end

/-! ### C66 -/

theorem float_buffered (hL : C.L.WF) (c : SV.Cfg) (e1 e : Entry 32) (he1 : e1 ∈ SV.floatVecs c) (h1 : e1.impl.N = 1)
    (he : e ∈ SV.floatVecs c) (hcmp : SV.hasFloatCmp c e.impl.N = true) (E : FEnv) (B : Bits 32 V) (base : Nat → Nat) (hb : ∀ id, 4 ∣ base id)
    (K : Pairs 32) (hk : K.test.only (SV.exactDiv c e.impl.N) (!SV.usesNeon c e.impl.N) true = true)
    (hks : ∀ ex ∈ K.vals, ex.only (SV.exactDiv c e.impl.N) (!SV.usesNeon c e.impl.N) true = true)
    (U : Buffer 32 V) (hU : U.Fits K e.impl.N) (hc : ∀ ex ∈ U.code, ex.only (SV.exactDiv c e.impl.N) (!SV.usesNeon c e.impl.N) true = true)
    (c0 : Cell V) (t : Counters) (n : Nat) (ht : t.Ok e.impl.N n) (W : World V) (hV : Valid C dv W) (s : Nat) (d ext : Ext)
    (hd : selectSizes C.tr d = .ok ext) (hx : 4 ∣ ext.x * ext.y * ext.z) (hds : DimsAre C W s d) (hdx : pairEnd e.impl.N n ≤ d.x)
    (hdy : 0 < d.y) (hdz : 0 < d.z) (hint : pairEnd e.impl.N n ≤ 2 ^ 31)
    (hm : ∀ r k, U.Uses K r k → ∃ m, C.L[r]? = some m ∧ m.ty.size = 4 ∧ k < m.elems)
    (σ : Loc → V) (hσ : ∀ l, InGrid C W l → ValueIs C W l (σ l))
    (hnum : Numbers B s (fun x => 0 ≤ x ∧ x < pairEnd e.impl.N n) (U.Reads K) σ) :
    Yields C dv W (K.all B E.f32 s (U.now B E.f32 s) n (pairStop e.impl.N n) (σ, ())).1
      (buffered C B base E E.f32 K U c0 t e1 e n W s) := by
  have hN := SV.float_arity c e he
  have hpos : 0 < e.impl.N ∧ e.impl.N < 2 ^ 31 := by
    have : ∀ n ∈ [1, 2, 4, 8, 16, 32], 0 < n ∧ n < 2 ^ 31 := by decide
    exact this _ hN
  have H := SV.float_faithful c e he E
  rw [SV.C45_float_available c e he, hcmp] at H
  have hcmp1 : SV.hasFloatCmp c e1.impl.N = true := by rw [h1]; cases c <;> rfl
  have H1 := SV.float_faithful c e1 he1 E
  rw [SV.C45_float_available c e1 he1, hcmp1] at H1
  obtain ⟨D, hD⟩ := Option.isSome_iff_exists.1 ((SV.C45_float_available c e he).trans hcmp)
  obtain ⟨D1, hD1⟩ := Option.isSome_iff_exists.1 ((SV.C45_float_available c e1 he1).trans hcmp1)
  refine buffered_ok hL B base E E.f32 c0 hU (H1.weaken ?_ ?_ id) H (SV.C46_float_partial c e1 he1 E) (SV.C46_float_partial c e he E) ?_ ?_
    (tests (F := FEnv.f32) hD1 (SV.float_arith c e1 he1).len (SV.float_cmp c e1 he1 D1 hD1))
    (tests (F := FEnv.f32) hD (SV.float_arith c e he).len (SV.float_cmp c e he D hD))
    h1 hk hks hc (by decide) hpos.1 hpos.2 ht hV hd hx hb hds hdx hdy hdz hint hm hσ hnum
  · rw [h1]; intro _; rfl
  · rw [h1]; intro _; simp only [SV.usesNeon]; rfl
  · rw [h1]; cases c <;> rfl
  · have : ∀ n ∈ [1, 2, 4, 8, 16, 32], SV.hasFloatCmp c n = true → (SV.floatReqs c n).any = 1 := by cases c <;> decide
    exact this _ hN hcmp

/-- C66 for `float`: a functor which collects interactions in a soa_array whose capacity is the vectors' arity, processes these by vectors
    when it is full and processes the last ones by vectors of arity 1 computes what two nested scalar loops compute which process each
    interaction at once. The soa_array never overflows, and is empty in the end. Missing: numbers of particles which are no multiples of the
    arity (C66_false), and divisions and square roots where vectors only approximate these. -/
theorem C66_float_partial (hL : C.L.WF) (c : SV.Cfg) (e1 e : Entry 32) (he1 : e1 ∈ SV.floatVecs c) (h1 : e1.impl.N = 1)
    (he : e ∈ SV.floatVecs c) (hcmp : SV.hasFloatCmp c e.impl.N = true) (E : FEnv) (B : Bits 32 V) (base : Nat → Nat) (hb : ∀ id, 4 ∣ base id)
    (K : Pairs 32) (hk : K.test.only (SV.exactDiv c e.impl.N) (!SV.usesNeon c e.impl.N) true = true)
    (hks : ∀ ex ∈ K.vals, ex.only (SV.exactDiv c e.impl.N) (!SV.usesNeon c e.impl.N) true = true)
    (U : Buffer 32 V) (hU : U.Fits K e.impl.N) (hc : ∀ ex ∈ U.code, ex.only (SV.exactDiv c e.impl.N) (!SV.usesNeon c e.impl.N) true = true)
    (c0 : Cell V) (t : Counters) (n : Nat) (ht : t.Ok e.impl.N n) (hn : e.impl.N ∣ n) (W : World V) (hV : Valid C dv W) (s : Nat) (d ext : Ext)
    (hd : selectSizes C.tr d = .ok ext) (hx : 4 ∣ ext.x * ext.y * ext.z) (hds : DimsAre C W s d) (hdx : n ≤ d.x)
    (hdy : 0 < d.y) (hdz : 0 < d.z) (hint : n ≤ 2 ^ 31)
    (hm : ∀ r k, U.Uses K r k → ∃ m, C.L[r]? = some m ∧ m.ty.size = 4 ∧ k < m.elems)
    (σ : Loc → V) (hσ : ∀ l, InGrid C W l → ValueIs C W l (σ l))
    (hnum : Numbers B s (fun x => 0 ≤ x ∧ x < n) (U.Reads K) σ) :
    Yields C dv W (K.all B E.f32 s (U.now B E.f32 s) n (fun _ => n) (σ, ())).1 (buffered C B base E E.f32 K U c0 t e1 e n W s) := by
  have he' : pairEnd e.impl.N n = n := if_pos hn
  have := float_buffered hL c e1 e he1 h1 he hcmp E B base hb K hk hks U hU hc c0 t n ht W hV s d ext hd hx hds (by rw [he']; exact hdx) hdy hdz
    (by rw [he']; exact hint) hm σ hσ (by rw [he']; exact hnum)
  rwa [all_congr _ fun i _ hi => pairStop_dvd hn hi] at this

theorem double_buffered (hL : C.L.WF) (c : SV.Cfg) (e1 e : Entry 64) (he1 : e1 ∈ SV.doubleVecs c) (h1 : e1.impl.N = 1)
    (he : e ∈ SV.doubleVecs c) (hcmp : SV.hasDoubleCmp c e.impl.N = true) (E : FEnv) (B : Bits 64 V) (base : Nat → Nat) (hb : ∀ id, 8 ∣ base id)
    (K : Pairs 64) (U : Buffer 64 V) (hU : U.Fits K e.impl.N)
    (c0 : Cell V) (t : Counters) (n : Nat) (ht : t.Ok e.impl.N n) (W : World V) (hV : Valid C dv W) (s : Nat) (d ext : Ext)
    (hd : selectSizes C.tr d = .ok ext) (hx : 8 ∣ ext.x * ext.y * ext.z) (hds : DimsAre C W s d) (hdx : pairEnd e.impl.N n ≤ d.x)
    (hdy : 0 < d.y) (hdz : 0 < d.z) (hint : pairEnd e.impl.N n ≤ 2 ^ 31)
    (hm : ∀ r k, U.Uses K r k → ∃ m, C.L[r]? = some m ∧ m.ty.size = 8 ∧ k < m.elems)
    (σ : Loc → V) (hσ : ∀ l, InGrid C W l → ValueIs C W l (σ l))
    (hnum : Numbers B s (fun x => 0 ≤ x ∧ x < pairEnd e.impl.N n) (U.Reads K) σ) :
    Yields C dv W (K.all B E.f64 s (U.now B E.f64 s) n (pairStop e.impl.N n) (σ, ())).1
      (buffered C B base E E.f64 K U c0 t e1 e n W s) := by
  have hN := SV.double_arity c e he
  have hpos : 0 < e.impl.N ∧ e.impl.N < 2 ^ 31 := by
    have : ∀ n ∈ [1, 2, 4, 8, 16, 32], 0 < n ∧ n < 2 ^ 31 := by decide
    exact this _ hN
  have hqpx : ¬ (c = .qpx ∧ 2 < e.impl.N) := by
    rintro ⟨rfl, h⟩
    simp only [SV.hasDoubleCmp, decide_eq_true_eq] at hcmp
    omega
  have H := SV.double_faithful c e he E
  rw [SV.C45_double_available c e he, hcmp, decide_eq_false hqpx] at H
  have hcmp1 : SV.hasDoubleCmp c e1.impl.N = true := by rw [h1]; cases c <;> rfl
  have H1 := SV.double_faithful c e1 he1 E
  rw [SV.C45_double_available c e1 he1, hcmp1] at H1
  obtain ⟨D, hD⟩ := Option.isSome_iff_exists.1 ((SV.C45_double_available c e he).trans hcmp)
  obtain ⟨D1, hD1⟩ := Option.isSome_iff_exists.1 ((SV.C45_double_available c e1 he1).trans hcmp1)
  refine buffered_ok hL B base E E.f64 c0 hU (H1.weaken ?_ ?_ id) H (SV.C46_double_partial c e1 he1 E) (SV.C46_double_partial c e he E) ?_ ?_
    (tests (F := FEnv.f64) hD1 (SV.double_arith c e1 he1).len (SV.double_cmp c e1 he1 D1 hD1))
    (tests (F := FEnv.f64) hD (SV.double_arith c e he).len (SV.double_cmp c e he D hD))
    h1 (only_all _) (fun ex _ => only_all ex) (fun ex _ => only_all ex) (by decide) hpos.1 hpos.2 ht hV hd hx hb hds hdx hdy hdz hint hm hσ hnum
  · rw [h1]; intro _; simp
  · rw [h1]; intro _; simp
  · rw [h1]; cases c <;> rfl
  · have : ∀ n ∈ [1, 2, 4, 8, 16, 32], ¬ (c = .qpx ∧ 2 < n) → (SV.doubleReqs c n).any = 1 := by cases c <;> decide
    exact this _ hN hqpx

/-- C66 for `double`, including divisions and square roots. -/
theorem C66_double_partial (hL : C.L.WF) (c : SV.Cfg) (e1 e : Entry 64) (he1 : e1 ∈ SV.doubleVecs c) (h1 : e1.impl.N = 1)
    (he : e ∈ SV.doubleVecs c) (hcmp : SV.hasDoubleCmp c e.impl.N = true) (E : FEnv) (B : Bits 64 V) (base : Nat → Nat) (hb : ∀ id, 8 ∣ base id)
    (K : Pairs 64) (U : Buffer 64 V) (hU : U.Fits K e.impl.N)
    (c0 : Cell V) (t : Counters) (n : Nat) (ht : t.Ok e.impl.N n) (hn : e.impl.N ∣ n) (W : World V) (hV : Valid C dv W) (s : Nat) (d ext : Ext)
    (hd : selectSizes C.tr d = .ok ext) (hx : 8 ∣ ext.x * ext.y * ext.z) (hds : DimsAre C W s d) (hdx : n ≤ d.x)
    (hdy : 0 < d.y) (hdz : 0 < d.z) (hint : n ≤ 2 ^ 31)
    (hm : ∀ r k, U.Uses K r k → ∃ m, C.L[r]? = some m ∧ m.ty.size = 8 ∧ k < m.elems)
    (σ : Loc → V) (hσ : ∀ l, InGrid C W l → ValueIs C W l (σ l))
    (hnum : Numbers B s (fun x => 0 ≤ x ∧ x < n) (U.Reads K) σ) :
    Yields C dv W (K.all B E.f64 s (U.now B E.f64 s) n (fun _ => n) (σ, ())).1 (buffered C B base E E.f64 K U c0 t e1 e n W s) := by
  have he' : pairEnd e.impl.N n = n := if_pos hn
  have := double_buffered hL c e1 e he1 h1 he hcmp E B base hb K U hU c0 t n ht W hV s d ext hd hx hds (by rw [he']; exact hdx) hdy hdz
    (by rw [he']; exact hint) hm σ hσ (by rw [he']; exact hnum)
  rwa [all_congr _ fun i _ hi => pairStop_dvd hn hi] at this

/-! ### Numbers of particles which are no multiples of the arity -/

/-- The struct consists of the two indices. -/
def indices (ints : Bits 32 V) (v : V) (base r k : Nat) (y : BitVec w) : Buffer w V :=
  ⟨[⟨⟨4, true⟩, none, v⟩, ⟨⟨4, true⟩, none, v⟩], base, ints, [.index true, .index false], [], 0, 1, mark r k y⟩

theorem indices_fits (ints : Bits 32 V) (v : V) {base r k : Nat} (y x thr : BitVec w) (N : Nat) (hb : w / 8 ∣ base) :
    (indices ints v base r k y).Fits (marks x thr) N where
  wf := by
    intro m hm
    simp only [indices, List.mem_cons, List.not_mem_nil, or_false] at hm
    rcases hm with rfl | rfl <;> simp [Member.elems]
  base := hb
  vars := fun ex hex => (nomatch hex)
  i := ⟨rfl, _, rfl⟩
  j := ⟨rfl, _, rfl⟩
  vals := by simp [indices]
  lanes := by
    intro u hu v hv
    simp only [indices, mark, List.mem_singleton] at hu
    subst hu
    cases hv
  apart := by
    intro u _ v hv
    cases hv
  fresh := by simp [indices]

/-- C66 is false for numbers of particles which are no multiples of the arity: the next particle in the grid is also processed, although it
    is none of the `n` particles. -/
theorem C66_false (hL : C.L.WF) (c : SV.Cfg) (e1 e : Entry 32) (he1 : e1 ∈ SV.floatVecs c) (h1 : e1.impl.N = 1)
    (he : e ∈ SV.floatVecs c) (hcmp : SV.hasFloatCmp c e.impl.N = true) (E : FEnv) (B ints : Bits 32 V) (base : Nat → Nat)
    (hb : ∀ id, 4 ∣ base id) (x thr y : BitVec 32) (hrel : E.f32.lt x thr = true) (r k : Nat) (v : V) (bbase : Nat) (hbb : 4 ∣ bbase) (c0 : Cell V)
    (t : Counters) (n : Nat) (ht : t.Ok e.impl.N n) (hn : ¬ e.impl.N ∣ n) (hint : n + e.impl.N ≤ 2 ^ 31)
    (W : World V) (hV : Valid C dv W) (s : Nat) (d ext : Ext) (hd : selectSizes C.tr d = .ok ext) (hx : 4 ∣ ext.x * ext.y * ext.z)
    (hds : DimsAre C W s d) (hdx : n + e.impl.N ≤ d.x) (hdy : 0 < d.y) (hdz : 0 < d.z)
    (hm : ∃ m, C.L[r]? = some m ∧ m.ty.size = 4 ∧ k < m.elems) (σ : Loc → V) (hσ : ∀ l, InGrid C W l → ValueIs C W l (σ l)) :
    ∃ σ', Yields C dv W σ' (buffered C B base E E.f32 (marks x thr) (indices ints v bbase r k y) c0 t e1 e n W s) ∧ InGrid C W (mem s n r k) ∧
      σ' (mem s n r k) = B.val y ∧
      ((marks x thr).all B E.f32 s ((indices ints v bbase r k y).now B E.f32 s) n (fun _ => n) (σ, ())).1 (mem s n r k) = σ (mem s n r k) := by
  have hpos : 0 < e.impl.N := by
    have : ∀ n ∈ [1, 2, 4, 8, 16, 32], 0 < n := by decide
    exact this _ (SV.float_arity c e he)
  have hdm := Nat.div_add_mod n e.impl.N
  have hmod := Nat.mod_lt n hpos
  have hm0 : n % e.impl.N ≠ 0 := fun h => hn (Nat.dvd_of_mod_eq_zero h)
  have e1' : e.impl.N * (n / e.impl.N + 1) = e.impl.N * (n / e.impl.N) + e.impl.N := Nat.mul_succ _ _
  have hend : pairEnd e.impl.N n ≤ n + e.impl.N := by
    unfold pairEnd
    rw [if_neg hn]
    omega
  have hstep : ∀ (i j : Int) (p : (Loc → V) × Unit), (marks x thr).step B E.f32 s ((indices ints v bbase r k y).now B E.f32 s) i j p =
      (fun l => if l = mem s j r k then B.val y else p.1 l, ()) := by
    intro i j p
    have : E.f32.rel (marks x thr).rel ((marks x thr).eval B E.f32 s p.1 i j (marks x thr).test) (marks x thr).thr = true := hrel
    unfold Pairs.step
    rw [if_pos this]
    rfl
  have hread : ∀ r' k', ¬ (indices ints v bbase r k y).Reads (marks x thr) r' k' := by
    rintro r' k' ((⟨v, hv, -⟩ | ⟨u, hu, v, hv, -⟩) | ⟨m, hm, -⟩)
    · cases hv
    · simp only [indices, mark, List.mem_singleton] at hu
      subst hu
      cases hv
    · simp [indices] at hm
  refine ⟨_, float_buffered hL c e1 e he1 h1 he hcmp E B base hb (marks x thr) rfl (fun ex hex => (nomatch hex)) _
    (indices_fits ints v y x thr _ hbb) (fun ex hex => (nomatch hex)) c0 t n ht W hV s d ext hd hx hds (by omega) hdy hdz (by omega) ?_ σ hσ ?_,
    ?_, ?_, ?_⟩
  · rintro r' k' (h | ⟨u, hu, rfl, rfl⟩)
    · exact absurd h (hread r' k')
    · simp only [indices, mark, List.mem_singleton] at hu
      subst hu
      exact hm
  · intro r' k' h
    exact absurd h (hread r' k')
  · obtain ⟨m, m1, -, m3⟩ := hm
    exact ⟨d, m, hds, m1, m3, by simp [mem], by simp only [mem]; omega, by simp [mem], by simpa [mem] using hdy, by simp [mem],
      by simpa [mem] using hdz⟩
  · refine foldl_hit _ (fun p : (Loc → V) × Unit => p.1 (mem s n r k) = B.val y) _ (fun i _ p hp => ?_) ((n : Int) - 1)
      (mem_iota.2 ⟨by omega, by omega⟩) (fun p => ?_) _
    · refine foldl_keep _ (fun p : (Loc → V) × Unit => p.1 (mem s n r k) = B.val y) _ (fun j _ p hp => ?_) _ hp
      rw [hstep]
      simp only
      split
      · rfl
      · exact hp
    · refine foldl_hit _ (fun p : (Loc → V) × Unit => p.1 (mem s n r k) = B.val y) _ (fun j _ p hp => ?_) (n : Int)
        (mem_iota.2 ⟨by omega, ?_⟩) (fun p => ?_) _
      · rw [hstep]
        simp only
        split
        · rfl
        · exact hp
      · unfold pairStop
        rw [if_neg (by rw [← Int.natCast_mul]; omega), ← Int.natCast_mul]
        omega
      · rw [hstep]
        simp only [if_true]
  · refine foldl_keep _ (fun p : (Loc → V) × Unit => p.1 (mem s n r k) = σ (mem s n r k)) _ (fun i hi p hp => ?_) _ rfl
    refine foldl_keep _ (fun p : (Loc → V) × Unit => p.1 (mem s n r k) = σ (mem s n r k)) _ (fun j hj p hp => ?_) _ hp
    have h2 := mem_iota.1 hj
    have h3 := mem_iota.1 hi
    simp only at h2
    rw [hstep]
    simp only
    rw [if_neg]
    · exact hp
    · intro h
      simp only [mem, Loc.mk.injEq] at h
      omega

/-! ### The hypotheses can be met -/
namespace Demo

/-- Pairs of particles whose distance is small (kernels.hpp:209-213), of struct { float rho; float pos[2]; }. -/
def near : Pairs 32 := { density with rel := .lt, thr := 0x40000000 }

/-- A struct of two coordinates, the lane and both indices. What is computed: `sqrt(lane) * (pos_i - pos_j)`. It is added to one of the particles and
    subtracted from the other (kernels.hpp:131-149, 215-229). -/
def forces : Buffer 32 (BitVec 32) where
  L := List.replicate 5 ⟨⟨4, true⟩, none, 0⟩
  base := 8192
  ints := B
  fields := [.mem ⟨true, 1, 0⟩, .mem ⟨false, 1, 0⟩, .val 0, .index true, .index false]
  code := [.mul (.sqrt (.var 2)) (.sub (.var 0) (.var 1))]
  i := 3
  j := 4
  us := [⟨⟨true, 0, 0⟩, .add (.var 1) (.var 0), fun v => if v = 0 then .val 0 else .mem ⟨true, 0, 0⟩⟩,
    ⟨⟨false, 0, 0⟩, .sub (.var 1) (.var 0), fun v => if v = 0 then .val 0 else .mem ⟨false, 0, 0⟩⟩]

theorem forces_upd {u : Upd 32} (h : u ∈ forces.us) : u.dst.r = 0 ∧ u.dst.k = 0 ∧ ∃ own, u.arg = fun v => if v = 0 then .val 0 else .mem ⟨own, 0, 0⟩ := by
  simp only [forces, List.mem_cons, List.not_mem_nil, or_false] at h
  rcases h with rfl | rfl
  · exact ⟨rfl, rfl, true, rfl⟩
  · exact ⟨rfl, rfl, false, rfl⟩

theorem forces_fits : forces.Fits near 8 where
  wf := by
    intro m hm
    simp only [forces, List.mem_replicate] at hm
    rw [hm.2]
    simp [Member.elems]
  base := by decide
  vars := by
    intro ex hex v hv
    simp only [forces, List.mem_singleton] at hex
    subst hex
    have : v = 2 ∨ v = 0 ∨ v = 1 := by simpa [Expr.vars] using hv
    rcases this with rfl | rfl | rfl
    · exact ⟨.inr ⟨_, rfl⟩, _, rfl, rfl, by decide⟩
    · exact ⟨.inl ⟨_, rfl⟩, _, rfl, rfl, by decide⟩
    · exact ⟨.inl ⟨_, rfl⟩, _, rfl, rfl, by decide⟩
  i := ⟨rfl, _, rfl⟩
  j := ⟨rfl, _, rfl⟩
  vals := by
    intro k hk
    simp [forces] at hk
    subst hk
    decide
  lanes := by
    intro u hu v _ k hk
    obtain ⟨-, -, own, ha⟩ := forces_upd hu
    rw [ha] at hk
    simp only at hk
    split at hk
    · cases hk; decide
    · cases hk
  apart := by
    intro u hu v _ h
    rw [(forces_upd hu).1] at h
    simp [near, density] at h
  fresh := by
    intro u hu m hm h
    rw [(forces_upd hu).1] at h
    simp only [forces, List.mem_cons, List.not_mem_nil, or_false, Field.mem.injEq, reduceCtorEq] at hm
    rcases hm with rfl | rfl <;> simp at h

theorem forces_uses {r k : Nat} (h : forces.Uses near r k) : ∃ m, dC.L[r]? = some m ∧ m.ty.size = 4 ∧ k < m.elems := by
  rcases h with ((⟨v, hv, rfl, rfl⟩ | ⟨u, hu, v, -, m, hm, rfl, rfl⟩) | ⟨m, hm, rfl, rfl⟩) | ⟨u, hu, rfl, rfl⟩
  · have := density_vars hv
    exact ⟨_, rfl, rfl, by simp [near, density, Member.elems]; omega⟩
  · obtain ⟨-, -, own, ha⟩ := forces_upd hu
    rw [ha] at hm
    simp only at hm
    split at hm
    · cases hm
    · cases hm
      exact ⟨_, rfl, rfl, by simp [Member.elems]⟩
  · simp only [forces, List.mem_cons, List.not_mem_nil, or_false, Field.mem.injEq, reduceCtorEq] at hm
    rcases hm with rfl | rfl <;> exact ⟨_, rfl, rfl, by simp [Member.elems]⟩
  · obtain ⟨h1, h2, -⟩ := forces_upd hu
    rw [h1, h2]
    exact ⟨_, rfl, rfl, by simp [Member.elems]⟩

/-- 40 of the particles of a grid of 60, on AVX with vectors of 8 `float`s. -/
example : ∃ W σ e1 e base c0, Yields dC 0 W (near.all B FEnv.demo.f32 0 (forces.now B FEnv.demo.f32 0) 40 (fun _ => (40 : Nat)) (σ, ())).1
    (buffered dC B base FEnv.demo FEnv.demo.f32 near forces c0 counters e1 e 40 W 0) := by
  obtain ⟨W, hV, h0, -⟩ := world ⟨60, 1, 1⟩ ⟨64, 1, 1⟩ (by decide) (by decide)
  obtain ⟨σ, hσ⟩ := Thr.exists_store hL hV
  obtain ⟨e1, he1, hn1, e, he, hn⟩ : ∃ e1 ∈ SV.floatVecs .avx, e1.impl.N = 1 ∧ ∃ e ∈ SV.floatVecs .avx, e.impl.N = 8 :=
    ⟨_, List.mem_cons_self, rfl, _, List.mem_cons_of_mem _ (List.mem_cons_of_mem _ (List.mem_cons_of_mem _ List.mem_cons_self)), rfl⟩
  refine ⟨W, σ, e1, e, fun id => 4096 * (1 + 100000 * id), fun _ _ => 0, ?_⟩
  exact C66_float_partial hL .avx e1 e he1 hn1 he (by rw [hn]; rfl) FEnv.demo B _ (fun id => ⟨_, Nat.mul_assoc 4 1024 _⟩) near
    (by rw [hn]; decide) (by rw [hn]; decide) forces (by rw [hn]; exact forces_fits) (by rw [hn]; decide) _ counters 40
    (by rw [hn]; exact ⟨by decide, by decide, by decide, by decide, by decide, by decide, by decide, by decide, by decide⟩)
    (by rw [hn]; decide) W hV 0 ⟨60, 1, 1⟩ ⟨64, 1, 1⟩ (by decide) (by decide) h0 (by decide) (by decide) (by decide) (by decide)
    (fun r k h => forces_uses h) σ hσ (fun _ _ _ _ _ => rfl)

/-- 41 of the particles: particle 41, which is the 42nd one, changes. -/
example : ∃ W σ σ' e1 e base c0, Yields dC 0 W σ' (buffered dC B base FEnv.demo FEnv.demo.f32 (marks 0 1) (indices B 0 8192 0 0 7) c0 counters e1 e 41 W 0) ∧
    σ' (mem 0 (41 : Nat) 0 0) = 7 ∧ ((marks 0 1).all B FEnv.demo.f32 0 ((indices B 0 8192 0 0 7).now B FEnv.demo.f32 0) 41 (fun _ => (41 : Nat)) (σ, ())).1
      (mem 0 (41 : Nat) 0 0) = σ (mem 0 (41 : Nat) 0 0) := by
  obtain ⟨W, hV, h0, -⟩ := world ⟨60, 1, 1⟩ ⟨64, 1, 1⟩ (by decide) (by decide)
  obtain ⟨σ, hσ⟩ := Thr.exists_store hL hV
  obtain ⟨e1, he1, hn1, e, he, hn⟩ : ∃ e1 ∈ SV.floatVecs .avx, e1.impl.N = 1 ∧ ∃ e ∈ SV.floatVecs .avx, e.impl.N = 8 :=
    ⟨_, List.mem_cons_self, rfl, _, List.mem_cons_of_mem _ (List.mem_cons_of_mem _ (List.mem_cons_of_mem _ List.mem_cons_self)), rfl⟩
  obtain ⟨σ', k1, -, k2, k3⟩ := C66_false hL .avx e1 e he1 hn1 he (by rw [hn]; rfl) FEnv.demo B B (fun id => 4096 * (1 + 100000 * id))
    (fun id => ⟨_, Nat.mul_assoc 4 1024 _⟩) 0 1 7 (by decide) 0 0 0 8192 (by decide) (fun _ _ => 0) counters 41
    (by rw [hn]; exact ⟨by decide, by decide, by decide, by decide, by decide, by decide, by decide, by decide, by decide⟩)
    (by rw [hn]; decide) (by rw [hn]; decide) W hV 0 ⟨60, 1, 1⟩ ⟨64, 1, 1⟩ (by decide) (by decide) h0 (by rw [hn]; decide) (by decide) (by decide)
    ⟨_, rfl, rfl, by decide⟩ σ hσ
  exact ⟨W, σ, σ', e1, e, _, _, k1, k2, k3⟩

end Demo
end LFA.GK
