import Verif.Props.AllPairs
import Verif.Props.Adaptive

/-
  C75: the scalar version (NBodyIron), and that the vectorised versions compute the same.
-/
set_option linter.unusedSectionVars false
namespace LFA.GK
open Props (ArrValid ListIs arrAllowed arrAllowed_bind arr_exec_refines)
open SV (Expr Entry FEnv FOps Calc)

variable {V : Type} [DecidableEq V] {w : Nat}

/-- A statement of NBodyIron (examples/performance_tests/main.cpp:1405-1445): members are read and written one by one. `accessorA` and
    `accessorB` are at index `i` of `particlesA` and `particlesB` (arrays 0 and 1), `accessorA2` is at index `j` of `particlesA`. Local
    variables have some value from the beginning, as in `AllPairs.one`. -/
def Stmt.iron (B : Bits w V) (F : Calc w) (i j : Nat) (x : Nat → BitVec w) : Stmt w → Prog (ArrOp V) (ArrOut V) (Nat → BitVec w)
  | .load d r k => .call (.peek 0 (i : Nat) r k) fun
    | .val v => .ret (Function.update x d ((B.bits v).getD 0))
    | _ => .ret x
  | .other d r k => .call (.peek 0 (j : Nat) r k) fun
    | .val v => .ret (Function.update x d ((B.bits v).getD 0))
    | _ => .ret x
  | .assign d e => .ret (Function.update x d (e.scalar F.F x))
  | .quot d u v => .ret (Function.update x d (F.ds (u.scalar F.F x) (v.scalar F.F x)))
  | .store r k e => .call (.poke 1 (i : Nat) r k (B.val (e.scalar F.F x))) fun _ => .ret x

/-- Statements in order. -/
def ironAll (B : Bits w V) (F : Calc w) (i j : Nat) : List (Stmt w) → (Nat → BitVec w) → Prog (ArrOp V) (ArrOut V) (Nat → BitVec w)
  | [], x => .ret x
  | s :: ss, x => (s.iron B F i j x).bind (ironAll B F i j ss)

/-- Body of the outer loop (main.cpp:1405-1445); the inner loop is main.cpp:1421-1434. -/
def AllPairs.ironBody (P : AllPairs w V) (F : Calc w) (n i : Nat) : Prog (ArrOp V) (ArrOut V) Unit :=
  (ironAll P.B F i i P.pre fun _ => 0).bind fun x =>
    (Prog.loop (fun j x => ironAll P.B F i j P.inner x) n 0 x).bind fun x => (ironAll P.B F i i P.post x).bind fun _ => .ret ()

/-- A time step (main.cpp:1400-1450): all particles, then the arrays are swapped. -/
def AllPairs.ironStep (P : AllPairs w V) (F : Calc w) (n : Nat) : Prog (ArrOp V) (ArrOut V) Unit :=
  (Prog.loop (fun i _ => P.ironBody F n i) n 0 ()).bind fun _ => .call (.swap 0 1) fun _ => .ret ()

/-- NBodyIron (main.cpp:1399-1451): `t` time steps with `n` particles. -/
def AllPairs.iron (P : AllPairs w V) (F : Calc w) (n t : Nat) : Prog (ArrOp V) (ArrOut V) Unit :=
  Prog.loop (fun _ _ => P.ironStep F n) t 0 ()

/-! ### Proof -/

/-- Positions are registered members. -/
def Stmt.Fits (L : Layout V) (s : Stmt w) : Prop := ∀ p ∈ s.pos, ∃ m, L[p.1]? = some m ∧ p.2 < m.elems

section
variable {L : Layout V} {B : Bits w V} {F : Calc w}

/-- `upd` of slot 1. -/
theorem upd1 (σ : ArrSpec.State V) (x) : ArrWorld.upd σ 1 x 0 = σ 0 := rfl

theorem peek_spec {σ : ArrSpec.State V} {s N : Nat} {l : List (Cell V)} (h : σ s = some (N, l)) {i r k : Nat} {m : Member V} {c : Cell V}
    (hi : l[i]? = some c) (hm : L[r]? = some m) (hk : k < m.elems) : ArrSpec.step L σ (.peek s (i : Nat) r k) = some (σ, .val (c r k)) := by
  simp only [ArrSpec.step, h, hm, Int.toNat_natCast, hi]
  rw [if_neg (by omega)]

theorem poke_spec {σ : ArrSpec.State V} {s N : Nat} {l : List (Cell V)} (h : σ s = some (N, l)) {i r k : Nat} {m : Member V} {c : Cell V}
    (hi : l[i]? = some c) (hm : L[r]? = some m) (hk : k < m.elems) (v : V) :
    ArrSpec.step L σ (.poke s (i : Nat) r k v) = some (ArrWorld.upd σ s (some (N, l.set i (c.set r k v))), .unit) := by
  simp only [ArrSpec.step, h, hm, Int.toNat_natCast, hi]
  rw [if_neg (by omega)]

theorem iron_one {σ : ArrSpec.State V} {N M : Nat} {l q : List (Cell V)} (h0 : σ 0 = some (N, l)) (h1 : σ 1 = some (M, q)) {i j : Nat}
    {c o b : Cell V} (hi : l[i]? = some c) (hj : l[j]? = some o) (hb : q[i]? = some b) (x : Nat → BitVec w) (s : Stmt w) (hs : s.Fits L) :
    ∃ σ', arrAllowed L (s.iron B F i j x) σ = some (σ', (s.scalar B F c o (x, b)).1) ∧ σ' 0 = some (N, l) ∧
      σ' 1 = some (M, q.set i (s.scalar B F c o (x, b)).2) := by
  have hq : q.set i b = q := by
    obtain ⟨hlt, rfl⟩ := List.getElem?_eq_some_iff.1 hb
    exact List.set_getElem_self hlt
  cases s with
  | load d r k =>
    obtain ⟨m, hm, hk⟩ := hs (r, k) (by simp [Stmt.pos])
    refine ⟨σ, ?_, h0, ?_⟩
    · simp only [Stmt.iron, arrAllowed, peek_spec h0 hi hm hk]; rfl
    · simp only [Stmt.scalar, hq, h1]
  | other d r k =>
    obtain ⟨m, hm, hk⟩ := hs (r, k) (by simp [Stmt.pos])
    refine ⟨σ, ?_, h0, ?_⟩
    · simp only [Stmt.iron, arrAllowed, peek_spec h0 hj hm hk]; rfl
    · simp only [Stmt.scalar, hq, h1]
  | assign d e => exact ⟨σ, rfl, h0, by simp only [Stmt.scalar, hq, h1]⟩
  | quot d u v => exact ⟨σ, rfl, h0, by simp only [Stmt.scalar, hq, h1]⟩
  | store r k e =>
    obtain ⟨m, hm, hk⟩ := hs (r, k) (by simp [Stmt.pos])
    refine ⟨ArrWorld.upd σ 1 (some (M, q.set i (b.set r k (B.val (e.scalar F.F x))))), ?_, h0, ?_⟩
    · simp only [Stmt.iron, arrAllowed, poke_spec h1 hb hm hk]; rfl
    · simp [Stmt.scalar, ArrWorld.upd]

theorem iron_all {i j : Nat} {N M : Nat} {l : List (Cell V)} {c o : Cell V} (hi : l[i]? = some c) (hj : l[j]? = some o) :
    ∀ (ss : List (Stmt w)) {σ : ArrSpec.State V} {q : List (Cell V)} {b : Cell V} (x : Nat → BitVec w), σ 0 = some (N, l) → σ 1 = some (M, q) →
      q[i]? = some b → (∀ s ∈ ss, s.Fits L) →
      ∃ σ', arrAllowed L (ironAll B F i j ss x) σ = some (σ', (ss.foldl (Stmt.scalar B F c o) (x, b)).1) ∧ σ' 0 = some (N, l) ∧
        σ' 1 = some (M, q.set i (ss.foldl (Stmt.scalar B F c o) (x, b)).2)
  | [], σ, q, b, x, h0, h1, hb, _ => by
    refine ⟨σ, rfl, h0, ?_⟩
    obtain ⟨hlt, rfl⟩ := List.getElem?_eq_some_iff.1 hb
    rw [List.foldl_nil, List.set_getElem_self hlt]; exact h1
  | s :: ss, σ, q, b, x, h0, h1, hb, hs => by
    obtain ⟨σ1, k1, k2, k3⟩ := iron_one (B := B) (F := F) h0 h1 hi hj hb x s (hs s (by simp))
    have hlt := (List.getElem?_eq_some_iff.1 hb).1
    obtain ⟨σ2, m1, m2, m3⟩ := iron_all hi hj ss (s.scalar B F c o (x, b)).1 k2 k3 (List.getElem?_set_self hlt) fun s' h' => hs s' (by simp [h'])
    refine ⟨σ2, ?_, m2, ?_⟩
    · rw [ironAll, arrAllowed_bind, k1]; exact m1
    · rw [m3, List.set_set]; rfl

theorem iron_inner (P : AllPairs w V) {i : Nat} {N M : Nat} {l : List (Cell V)} {c : Cell V} (hi : l[i]? = some c)
    (hs : ∀ s ∈ P.inner, s.Fits L) :
    ∀ (n j : Nat) {σ : ArrSpec.State V} {q : List (Cell V)} {b : Cell V} (x : Nat → BitVec w), j + n = l.length → σ 0 = some (N, l) →
      σ 1 = some (M, q) → q[i]? = some b →
      ∃ σ', arrAllowed L (Prog.loop (fun j x => ironAll P.B F i j P.inner x) n j x) σ =
          some (σ', ((l.drop j).foldl (fun x o => P.inner.foldl (Stmt.scalar P.B F c o) x) (x, b)).1) ∧ σ' 0 = some (N, l) ∧
        σ' 1 = some (M, q.set i ((l.drop j).foldl (fun x o => P.inner.foldl (Stmt.scalar P.B F c o) x) (x, b)).2)
  | 0, j, σ, q, b, x, hn, h0, h1, hb => by
    rw [List.drop_of_length_le (by omega)]
    refine ⟨σ, rfl, h0, ?_⟩
    obtain ⟨hlt, rfl⟩ := List.getElem?_eq_some_iff.1 hb
    rw [List.foldl_nil, List.set_getElem_self hlt]; exact h1
  | n + 1, j, σ, q, b, x, hn, h0, h1, hb => by
    have hjl : j < l.length := by omega
    obtain ⟨σ1, k1, k2, k3⟩ := iron_all (B := P.B) (F := F) hi (List.getElem?_eq_getElem hjl) P.inner x h0 h1 hb hs
    have hlt := (List.getElem?_eq_some_iff.1 hb).1
    obtain ⟨σ2, m1, m2, m3⟩ := iron_inner P hi hs n (j + 1) (P.inner.foldl (Stmt.scalar P.B F c l[j]) (x, b)).1 (by omega) k2 k3
      (List.getElem?_set_self hlt)
    rw [List.drop_eq_getElem_cons hjl]
    refine ⟨σ2, ?_, m2, ?_⟩
    · rw [Prog.loop, arrAllowed_bind, k1]; exact m1
    · rw [m3, List.set_set]; rfl

theorem iron_body (P : AllPairs w V) (hs : ∀ s ∈ P.stmts, s.Fits L) {i : Nat} {N M : Nat} {l q : List (Cell V)} {c b : Cell V}
    {σ : ArrSpec.State V} (h0 : σ 0 = some (N, l)) (h1 : σ 1 = some (M, q)) (hi : l[i]? = some c) (hb : q[i]? = some b) :
    ∃ σ', arrAllowed L (P.ironBody F l.length i) σ = some (σ', ()) ∧ σ' 0 = some (N, l) ∧ σ' 1 = some (M, q.set i (P.elem F l c b)) := by
  have hlt := (List.getElem?_eq_some_iff.1 hb).1
  have s1 : ∀ s ∈ P.pre, s.Fits L := fun s h => hs s (by simp [AllPairs.stmts, h])
  have s2 : ∀ s ∈ P.inner, s.Fits L := fun s h => hs s (by simp [AllPairs.stmts, h])
  have s3 : ∀ s ∈ P.post, s.Fits L := fun s h => hs s (by simp [AllPairs.stmts, h])
  obtain ⟨σ1, a1, a2, a3⟩ := iron_all (B := P.B) (F := F) hi hi P.pre (fun _ => 0) h0 h1 hb s1
  obtain ⟨σ2, b1, b2, b3⟩ := iron_inner (F := F) P hi s2 l.length 0 _ (by omega) a2 a3 (List.getElem?_set_self hlt)
  rw [List.set_set] at b3
  obtain ⟨σ3, c1, c2, c3⟩ := iron_all (B := P.B) (F := F) hi hi P.post _ b2 b3 (List.getElem?_set_self hlt) s3
  rw [List.set_set] at c3
  refine ⟨σ3, ?_, c2, c3⟩
  rw [AllPairs.ironBody, arrAllowed_bind, a1, Option.bind_some, arrAllowed_bind, b1, Option.bind_some, arrAllowed_bind]
  refine (congrArg (fun y => Option.bind y _) c1).trans ?_
  rfl

theorem iron_outer (P : AllPairs w V) (hs : ∀ s ∈ P.stmts, s.Fits L) {N M : Nat} {l q : List (Cell V)} (hlen : q.length = l.length) :
    ∀ (n i : Nat) {σ : ArrSpec.State V} (_ : i + n = l.length) (_ : σ 0 = some (N, l))
      (_ : σ 1 = some (M, List.zipWith (P.elem F l) (l.take i) (q.take i) ++ q.drop i)),
      ∃ σ', arrAllowed L (Prog.loop (fun i _ => P.ironBody F l.length i) n i ()) σ = some (σ', ()) ∧ σ' 0 = some (N, l) ∧
        σ' 1 = some (M, List.zipWith (P.elem F l) l q)
  | 0, i, σ, hn, h0, h1 => by
    refine ⟨σ, rfl, h0, ?_⟩
    rw [h1, List.take_of_length_le (by omega), List.take_of_length_le (by omega), List.drop_of_length_le (by omega), List.append_nil]
  | n + 1, i, σ, hn, h0, h1 => by
    have hi : i < l.length := by omega
    have hq : i < q.length := by omega
    have hz : (List.zipWith (P.elem F l) (l.take i) (q.take i)).length = i := by simp; omega
    have hb : (List.zipWith (P.elem F l) (l.take i) (q.take i) ++ q.drop i)[i]? = some q[i] := by
      rw [List.getElem?_append_right (by omega), hz, Nat.sub_self, List.getElem?_drop, Nat.add_zero, List.getElem?_eq_getElem hq]
    obtain ⟨σ1, k1, k2, k3⟩ := iron_body (F := F) P hs h0 h1 (List.getElem?_eq_getElem hi) hb
    have e : (List.zipWith (P.elem F l) (l.take i) (q.take i) ++ q.drop i).set i (P.elem F l l[i] q[i]) =
        List.zipWith (P.elem F l) (l.take (i + 1)) (q.take (i + 1)) ++ q.drop (i + 1) := by
      rw [List.set_append_right _ _ (by omega), hz, Nat.sub_self, List.drop_eq_getElem_cons hq, List.set_cons_zero,
        List.take_succ_eq_append_getElem hi, List.take_succ_eq_append_getElem hq, List.zipWith_append (by simp; omega)]
      simp
    rw [e] at k3
    obtain ⟨σ2, m1, m2, m3⟩ := iron_outer P hs hlen n (i + 1) (by omega) k2 k3
    exact ⟨σ2, by rw [Prog.loop, arrAllowed_bind, k1]; exact m1, m2, m3⟩

theorem iron_step (P : AllPairs w V) (hT : ArrSpec.trivial L = true) (hs : ∀ s ∈ P.stmts, s.Fits L) {N : Nat} {l q : List (Cell V)}
    (hlen : q.length = l.length) {σ : ArrSpec.State V} (h0 : σ 0 = some (N, l)) (h1 : σ 1 = some (N, q)) :
    ∃ σ', arrAllowed L (P.ironStep F l.length) σ = some (σ', ()) ∧ σ' 0 = some (N, (P.scalar F (l, q)).1) ∧ σ' 1 = some (N, (P.scalar F (l, q)).2) := by
  obtain ⟨σ1, k1, k2, k3⟩ := iron_outer (F := F) P hs hlen l.length 0 (by omega) h0 (by simpa using h1)
  refine ⟨ArrWorld.upd (ArrWorld.upd σ1 0 (some (N, List.zipWith (P.elem F l) l q))) 1 (some (N, l)), ?_, ?_, ?_⟩
  · rw [AllPairs.ironStep, arrAllowed_bind, k1]
    simp only [Option.bind_some, arrAllowed, ArrSpec.step, k2, k3, hT]
    rfl
  · simp [ArrWorld.upd, AllPairs.scalar]
  · simp [ArrWorld.upd, AllPairs.scalar]

theorem iron_run (P : AllPairs w V) (hT : ArrSpec.trivial L = true) (hs : ∀ s ∈ P.stmts, s.Fits L) {N n : Nat} :
    ∀ (t b : Nat) {l q : List (Cell V)} {σ : ArrSpec.State V}, l.length = n → q.length = n → σ 0 = some (N, l) → σ 1 = some (N, q) →
      ∃ σ', arrAllowed L (Prog.loop (fun _ _ => P.ironStep F n) t b ()) σ = some (σ', ()) ∧ σ' 0 = some (N, (P.scalars F t (l, q)).1) ∧
        σ' 1 = some (N, (P.scalars F t (l, q)).2)
  | 0, _, l, q, σ, _, _, h0, h1 => ⟨σ, rfl, h0, h1⟩
  | t + 1, b, l, q, σ, hl, hq, h0, h1 => by
    subst hl
    obtain ⟨σ1, k1, k2, k3⟩ := iron_step (F := F) P hT hs hq h0 h1
    obtain ⟨σ2, m1, m2, m3⟩ := iron_run P hT hs t (b + 1) (n := l.length) (by simp [AllPairs.scalar, hq]) (by simp [AllPairs.scalar]) k2 k3
    exact ⟨σ2, by rw [Prog.loop, arrAllowed_bind, k1]; exact m1, m2, m3⟩

end

theorem scalars_length (P : AllPairs w V) (F : Calc w) {n : Nat} : ∀ (t : Nat) (p : List (Cell V) × List (Cell V)), p.1.length = n →
    p.2.length = n → (P.scalars F t p).1.length = n ∧ (P.scalars F t p).2.length = n
  | 0, _, h0, h1 => ⟨h0, h1⟩
  | t + 1, p, h0, h1 => scalars_length P F t (P.scalar F p) (by simp [AllPairs.scalar, h0, h1]) h0

/-- C75, NBodyIron: scalar code which accesses members through accessors computes what scalar loops over lists compute, for any number of
    particles; members which are read but hold no number count as zero. -/
theorem C75_iron (P : AllPairs w V) (F : Calc w) (hL : P.L.WF) (dv : V) (htriv : ∀ m ∈ P.L, m.ty.triv = true)
    (hmem : ∀ s ∈ P.pre ++ (P.inner ++ P.post), ∀ p ∈ s.pos, ∃ m, P.L[p.1]? = some m ∧ p.2 < m.elems) (W : ArrWorld V) (hV : ArrValid P.L W)
    (N n : Nat) (l0 l1 : List (Cell V)) (h0 : ListIs P.L W 0 N l0) (h1 : ListIs P.L W 1 N l1) (hn0 : l0.length = n) (hn1 : l1.length = n) (t : Nat) :
    ∃ W', (P.iron F n t).exec (fun W op => ArrWorld.step P.L W op) W = .ok (W', ()) ∧
      ListIs P.L W' 0 N (P.scalars F t (l0, l1)).1 ∧ ListIs P.L W' 1 N (P.scalars F t (l0, l1)).2 := by
  obtain ⟨σ, hR⟩ := hV.refines hL dv
  obtain ⟨a0, r1, r2⟩ := listIs_rep hL dv hV h0
  obtain ⟨a1, r3, r4⟩ := listIs_rep hL dv hV h1
  have hR' : ArrR P.L W (ArrWorld.upd (ArrWorld.upd σ 0 (some (N, l0))) 1 (some (N, l1))) := by
    intro s
    simp only [ArrWorld.upd]
    by_cases e1 : s = 1
    · subst e1; simp only [if_true]; exact ⟨a1, r3, r4⟩
    · by_cases e0 : s = 0
      · subst e0; exact ⟨a0, r1, r2⟩
      · simp only [if_neg e1, if_neg e0]; exact hR s
  have hT : ArrSpec.trivial P.L = true := List.all_eq_true.2 htriv
  obtain ⟨σ', k1, k2, k3⟩ := iron_run (L := P.L) (F := F) P hT hmem t 0 hn0 hn1 (σ := ArrWorld.upd (ArrWorld.upd σ 0 (some (N, l0))) 1 (some (N, l1))) rfl rfl
  obtain ⟨W', e1, hR1⟩ := arr_exec_refines hL dv _ hR' k1
  obtain ⟨b0, m1, m2⟩ := hR1.arr k2
  obtain ⟨b1, m3, m4⟩ := hR1.arr k3
  exact ⟨W', e1, ListIs.of_rep hL m1 m2, ListIs.of_rep hL m3 m4⟩

/-- C75: NBodySilver and NBodyIron leave the same particles, if the scalar code computes as the target does (`SV.floatArith`). -/
theorem C75_agree (c : SV.Cfg) (e : Entry 32) (he : e ∈ SV.floatVecs c) (E : FEnv) (L : Layout V) (B : Bits 32 V) (base : Nat → Nat)
    (pre inner post : List (Stmt 32)) (N : Nat) (hF : (⟨L, B, base, E, 0, pre, inner, post⟩ : AllPairs 32 V).Fits N e.impl.N (SV.floatReqs c e.impl.N).any)
    (hk : ∀ s ∈ pre ++ (inner ++ post), s.only true true (SV.hasFloatCmp c e.impl.N) = true) (dv : V) (W : ArrWorld V) (hV : ArrValid L W)
    (n : Nat) (l0 l1 : List (Cell V)) (h0 : ListIs L W 0 N l0) (h1 : ListIs L W 1 N l1) (hn0 : l0.length = n) (hn1 : l1.length = n)
    (hru : roundUp e.impl.N n ≤ N) (hf : ∀ s < 2, (⟨L, B, base, E, 0, pre, inner, post⟩ : AllPairs 32 V).Filled W s (roundUp e.impl.N n)) (t : Nat) :
    ∃ Ws Wi, (⟨L, B, base, E, 0, pre, inner, post⟩ : AllPairs 32 V).run e n t W = .ok (Ws, .unit) ∧
      ((⟨L, B, base, E, 0, pre, inner, post⟩ : AllPairs 32 V).iron (SV.floatArith c e.impl.N E.f32) n t).exec (fun W op => ArrWorld.step L W op) W =
        .ok (Wi, ()) ∧
      ∀ s < 2, ∃ l, l.length = n ∧ ListIs L Ws s N l ∧ ListIs L Wi s N l := by
  obtain ⟨Ws, a1, a2, a3⟩ := C75_float c e he E L B base pre inner post N hF hk dv W hV n l0 l1 h0 h1 hn0 hn1 hru hf t
  obtain ⟨Wi, b1, b2, b3⟩ := C75_iron ⟨L, B, base, E, 0, pre, inner, post⟩ (SV.floatArith c e.impl.N E.f32) hF.wf dv hF.triv
    (fun s hs p hp => by obtain ⟨m, k1, k2, -⟩ := hF.mem s hs p hp; exact ⟨m, k1, k2⟩) W hV N n l0 l1 h0 h1 hn0 hn1 t
  refine ⟨Ws, Wi, a1, b1, fun s hs => ?_⟩
  obtain ⟨len0, len1⟩ := scalars_length (⟨L, B, base, E, 0, pre, inner, post⟩ : AllPairs 32 V) (SV.floatArith c e.impl.N E.f32) t (l0, l1) hn0 hn1
  have : s = 0 ∨ s = 1 := by omega
  rcases this with rfl | rfl
  · exact ⟨_, len0, a2, b2⟩
  · exact ⟨_, len1, a3, b3⟩

/-- The same for `double`. -/
theorem C75_agree_double (c : SV.Cfg) (e : Entry 64) (he : e ∈ SV.doubleVecs c) (E : FEnv) (L : Layout V) (B : Bits 64 V) (base : Nat → Nat)
    (pre inner post : List (Stmt 64)) (N : Nat) (hF : (⟨L, B, base, E, 0, pre, inner, post⟩ : AllPairs 64 V).Fits N e.impl.N (SV.doubleReqs c e.impl.N).any)
    (hk : ∀ s ∈ pre ++ (inner ++ post), s.only true true (SV.hasDoubleCmp c e.impl.N) = true) (dv : V) (W : ArrWorld V) (hV : ArrValid L W)
    (n : Nat) (l0 l1 : List (Cell V)) (h0 : ListIs L W 0 N l0) (h1 : ListIs L W 1 N l1) (hn0 : l0.length = n) (hn1 : l1.length = n)
    (hru : roundUp e.impl.N n ≤ N) (hf : ∀ s < 2, (⟨L, B, base, E, 0, pre, inner, post⟩ : AllPairs 64 V).Filled W s (roundUp e.impl.N n)) (t : Nat) :
    ∃ Ws Wi, (⟨L, B, base, E, 0, pre, inner, post⟩ : AllPairs 64 V).run e n t W = .ok (Ws, .unit) ∧
      ((⟨L, B, base, E, 0, pre, inner, post⟩ : AllPairs 64 V).iron (SV.doubleArith c e.impl.N E.f64) n t).exec (fun W op => ArrWorld.step L W op) W =
        .ok (Wi, ()) ∧
      ∀ s < 2, ∃ l, l.length = n ∧ ListIs L Ws s N l ∧ ListIs L Wi s N l := by
  obtain ⟨Ws, a1, a2, a3⟩ := C75_double c e he E L B base pre inner post N hF hk dv W hV n l0 l1 h0 h1 hn0 hn1 hru hf t
  obtain ⟨Wi, b1, b2, b3⟩ := C75_iron ⟨L, B, base, E, 0, pre, inner, post⟩ (SV.doubleArith c e.impl.N E.f64) hF.wf dv hF.triv
    (fun s hs p hp => by obtain ⟨m, k1, k2, -⟩ := hF.mem s hs p hp; exact ⟨m, k1, k2⟩) W hV N n l0 l1 h0 h1 hn0 hn1 t
  refine ⟨Ws, Wi, a1, b1, fun s hs => ?_⟩
  obtain ⟨len0, len1⟩ := scalars_length (⟨L, B, base, E, 0, pre, inner, post⟩ : AllPairs 64 V) (SV.doubleArith c e.impl.N E.f64) t (l0, l1) hn0 hn1
  have : s = 0 ∨ s = 1 := by omega
  rcases this with rfl | rfl
  · exact ⟨_, len0, a2, b2⟩
  · exact ⟨_, len1, a3, b3⟩

namespace Demo

/-- NBodyIron with any number of particles up to the capacity. -/
example (n : Nat) (hn : n ≤ 128) (F : Calc 32) : ∃ W W' l, ((silver 0).iron F n 3).exec (fun W op => ArrWorld.step particle W op) W = .ok (W', ()) ∧
    ListIs particle W' 0 128 l ∧ l.length = n := by
  obtain ⟨W, hV, h0, h1⟩ := two particle_wf n (by omega) (fun r _ => r) (fun _ _ => 7)
  obtain ⟨W', k1, k2, -⟩ := C75_iron (silver 0) F particle_wf 0 (silver_fits 0).triv
    (fun s hs p hp => by obtain ⟨m, k1, k2, -⟩ := (silver_fits 0).mem s hs p hp; exact ⟨m, k1, k2⟩) W hV 128 n _ _ h0 h1 (by simp) (by simp) 3
  exact ⟨W, W', _, k1, k2, (scalars_length (silver 0) F 3 _ (by simp) (by simp)).1⟩

end Demo
end LFA.GK
