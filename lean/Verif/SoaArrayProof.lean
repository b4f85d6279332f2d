import Verif.SoaArray
import Verif.GridProof

/-
  soa_array refines bounded lists.
-/
set_option linter.unusedSectionVars false
namespace LFA
namespace SArr
variable {V : Type} [DecidableEq V] {L : Layout V}

theorem prod_dim (N : Nat) : (dim N).prod = N := by simp [Ext.prod]

/-- Content of a buffer in which struct `i` has the value `c i`. -/
def cont (c : Nat → Cell V) : Cont V := fun r k i => some (c i r k)

/-- From marks to cells. -/
theorem view_mark {P : Nat} {b : Block V} {c c' : Nat → Cell V} {w : Cont V} {D : Nat → Nat → Nat → Prop}
    (h : View L P b (mark (cont c) w D))
    (h1 : ∀ r m k i, L[r]? = some m → k < m.elems → i < P → D r k i → w r k i = some (c' i r k))
    (h2 : ∀ r m k i, L[r]? = some m → k < m.elems → i < P → ¬ D r k i → c i r k = c' i r k) :
    View L P b (cont c') := by
  refine h.congr (fun r m k i hm hk hi => ?_)
  by_cases hD : D r k i
  · rw [mark_pos hD, h1 r m k i hm hk hi hD]; rfl
  · rw [mark_neg hD]; simp only [cont]; rw [h2 r m k i hm hk hi hD]

theorem setCell_ok (hL : L.WF) {N i : Nat} (hi : i < N) {b : Block V} {c : Nat → Cell V}
    (hb : View L (dim N).prod b (cont c)) (v : Cell V) :
    ∃ b', (acc N (i : Nat)).setCell L v b = .ok b' ∧ b'.size = b.size ∧
      View L (dim N).prod b' (cont fun i' => if i' = i then v else c i') := by
  obtain ⟨b', h1, h2, h3⟩ := (Marks.setCell (A := acc N (i : Nat)) (c := cont c) (w := cont fun _ => v) hL
    (accAt_At _ _) (by show i < (dim N).prod; rw [prod_dim]; exact hi) (cell := v) (fun _ _ _ _ _ => rfl)
    (fun _ _ _ _ _ _ => rfl)).run hb
  refine ⟨b', h1, h2.1, view_mark h3 ?_ ?_⟩
  · rintro r m k i' hm hk _ ⟨rfl, _⟩; simp [cont]
  · intro r m k i' hm hk _ hD
    have : ¬ i' = i := fun e => hD ⟨e, m, hm, hk⟩
    simp [this]

theorem getCell_eq (hL : L.WF) {N i : Nat} (hi : i < N) {b : Block V} {c : Nat → Cell V}
    (hb : View L (dim N).prod b (cont c)) (t : Cell V) :
    (acc N (i : Nat)).getCell L b t = .ok (overlay L (c i) t) := by
  obtain ⟨cell', h1, h2, h3⟩ := getCell_ok (A := acc N (i : Nat)) hL (accAt_At _ _)
    (by show i < (dim N).prod; rw [prod_dim]; exact hi) hb (val := c i) (fun _ _ _ _ _ => rfl) t
  rw [h1]
  congr 1
  funext r k
  unfold overlay
  cases hm : L[r]? with
  | none => exact h3 r k (fun m h => by rw [hm] at h; cases h)
  | some m =>
    by_cases hk : k < m.elems
    · simp only [hk, if_true]; exact h2 r m k hm hk
    · simp only [hk, if_false]
      exact h3 r k (fun m' h => by rw [hm] at h; cases h; exact hk)

theorem constructAll_ok (hL : L.WF) (dv : V) (N : Nat) :
    ∃ b : Block V, constructAll L N = .ok b ∧ b.size = aggSize L * N ∧
      View L (dim N).prod b (cont fun _ => dfltCell L dv) := by
  have hf : View L (dim N).prod (Block.fresh (aggSize L * N)) (fun _ _ _ => (none : Option V)) := by
    have := View.fresh (V := V) L N
    rw [prod_dim]; exact this
  obtain ⟨b', h1, h2, h3⟩ := (Marks.walkCells (L := L) (P := (dim N).prod) (c := fun _ _ _ => none)
    (w := cont fun _ => dfltCell L dv) (n := N) (i0 := 0) (idx := 0) rfl
    (f := fun _ idx b => (acc N idx).constructMembers L b) (fun j hj =>
      Marks.constructMembers (A := acc N ((0 + j : Nat) : Int)) hL (accAt_At _ _)
        (by show 0 + j < (dim N).prod; rw [prod_dim]; omega)
        (fun r m k hm hk => by simp [cont, dfltCell, hm]) (fun _ _ _ _ _ _ => rfl))).run hf
  refine ⟨b', h1, h2.1, h3.congr (fun r m k i hm hk hi => ?_)⟩
  rw [prod_dim] at hi
  rw [mark_pos]
  exact ⟨by omega, m, hm, hk⟩

theorem fill_ok (hL : L.WF) {N n : Nat} (hn : n ≤ N) {b : Block V} {c : Nat → Cell V}
    (hb : View L (dim N).prod b (cont c)) (v : Cell V) :
    ∃ b', walk n 0 (fun _ idx b => (acc N idx).setCell L v b) b = .ok b' ∧ b'.size = b.size ∧
      View L (dim N).prod b' (cont fun i => if i < n then v else c i) := by
  obtain ⟨b', h1, h2, h3⟩ := (Marks.walkCells (L := L) (P := (dim N).prod) (c := cont c)
    (w := cont fun _ => v) (n := n) (i0 := 0) (idx := 0) rfl
    (f := fun _ idx b => (acc N idx).setCell L v b) (fun j hj =>
      Marks.setCell (A := acc N ((0 + j : Nat) : Int)) hL (accAt_At _ _)
        (by show 0 + j < (dim N).prod; rw [prod_dim]; omega)
        (fun _ _ _ _ _ => rfl) (fun _ _ _ _ _ _ => rfl))).run hb
  refine ⟨b', h1, h2.1, view_mark h3 ?_ ?_⟩
  · rintro r m k i hm hk _ ⟨h, _⟩
    have : i < n := by omega
    simp [cont, this]
  · intro r m k i hm hk _ hD
    have : ¬ i < n := fun e => hD ⟨by omega, m, hm, hk⟩
    simp [this]

theorem dtor_ok (hL : L.WF) {N : Nat} {b : Block V} {c : Nat → Cell V} (hs : b.size = aggSize L * N)
    (hb : View L (dim N).prod b (cont c)) {n : Nat} :
    ∃ b', dtor L ⟨N, n, b⟩ = .ok b' ∧ b'.size = b.size ∧ View L N b' (fun _ _ _ => none) := by
  obtain ⟨b', h1, h2, h3⟩ := (Marks.walkCells (L := L) (P := (dim N).prod) (c := cont c)
    (w := fun _ _ _ => none) (n := N) (i0 := 0) (idx := 0) rfl
    (f := fun _ idx b => (acc N idx).destroyMembers L b) (fun j hj =>
      Marks.destroyMembers (A := acc N ((0 + j : Nat) : Int)) hL (accAt_At _ _)
        (by show 0 + j < (dim N).prod; rw [prod_dim]; omega)
        (fun _ _ _ _ _ => rfl) (fun _ _ _ _ _ _ => rfl))).run hb
  rw [prod_dim] at h3
  refine ⟨b', h1, h2.1, h3.congr (fun r m k i hm hk hi => ?_)⟩
  rw [mark_pos]
  exact ⟨by omega, m, hm, hk⟩

/-- Copy `m` structs from the front of another array (or from this one). -/
theorem copyMembers_ok (hL : L.WF) {N M m : Nat} (hN : m ≤ N) (hM : m ≤ M) {b : Block V} {c cs : Nat → Cell V}
    (hb : View L (dim N).prod b (cont c)) {src : Block V → Block V}
    (hsrc : (∃ sb, src = (fun _ => sb) ∧ View L (dim M).prod sb (cont cs)) ∨ (src = id ∧ N = M ∧ cs = c)) :
    ∃ b', (acc N 0).copyMembers L (acc M 0) src m b = .ok b' ∧ b'.size = b.size ∧
      View L (dim N).prod b' (cont fun i => if i < m then cs i else c i) := by
  obtain ⟨b', h1, h2, h3⟩ := (Marks.copyMembers (A := acc N 0) (O := acc M 0) (i0 := 0) (s0 := 0) hL (accAt_At _ 0) (accAt_At _ 0)
    (count := m) (by show 0 + m ≤ (dim N).prod; rw [prod_dim]; omega) (by show 0 + m ≤ (dim M).prod; rw [prod_dim]; omega)
    (c := cont c) (w := cont cs) (cs := cont cs) (src := src) (fun b S hv => by
      rcases hsrc with ⟨sb, rfl, h⟩ | ⟨rfl, rfl, rfl⟩
      · exact h.reads
      · exact (hv.congr (fun r m k i hm hk hi => by
          by_cases hS : S r k i
          · rw [mark_pos hS]
          · rw [mark_neg hS])).reads)
    (fun r m k j hm hk hj => ⟨cs (0 + j) r k, rfl, rfl⟩) (fun _ _ _ _ _ _ _ _ => rfl)).run hb
  refine ⟨b', h1, h2.1, view_mark h3 ?_ ?_⟩
  · rintro r m' k i hm hk _ ⟨h, _⟩
    have : i < m := by omega
    simp [cont, this]
  · intro r m' k i hm hk _ hD
    have : ¬ i < m := fun e => hD ⟨by omega, m', hm, hk⟩
    simp [this]

/-- `load`: copy `num` structs from position `j` of another array (or a disjoint part of this one) to position `off`. -/
theorem loadRaw_ok (hL : L.WF) {N M num j off : Nat} (hN : off + num ≤ N) (hM : j + num ≤ M) {b : Block V}
    {c cs : Nat → Cell V} (hb : View L (dim N).prod b (cont c)) {src : Block V → Block V}
    (hsrc : (∃ sb, src = (fun _ => sb) ∧ View L (dim M).prod sb (cont cs)) ∨
      (src = id ∧ N = M ∧ cs = c ∧ (j + num ≤ off ∨ off + num ≤ j))) :
    ∃ b', (acc N (off : Nat)).loadRaw L src num j M b = .ok b' ∧ b'.size = b.size ∧
      View L (dim N).prod b' (cont fun i => if off ≤ i ∧ i < off + num then cs (j + (i - off)) else c i) := by
  let c' : Nat → Cell V := fun i => if off ≤ i ∧ i < off + num then cs (j + (i - off)) else c i
  -- what can be read from the source is not affected by the writes
  let rs : Cont V := fun r k i => if j ≤ i ∧ i < j + num then some (cs i r k) else none
  obtain ⟨b', h1, h2, h3⟩ := (Marks.loadRaw (A := acc N (off : Nat)) (i0 := off) hL (accAt_At _ off)
    (count := num) (off := j) (stride := M) (by show off + num ≤ (dim N).prod; rw [prod_dim]; omega) hM
    (c := cont c) (w := cont c') (cs := rs) (src := src) (fun b S hv => by
      rcases hsrc with ⟨sb, rfl, h⟩ | ⟨rfl, rfl, rfl, hd⟩
      · rw [prod_dim] at h
        refine ⟨h.size, fun r m k i v hm hk hi hv => h.hsome r m k i v hm hk hi ?_⟩
        simp only [rs] at hv
        split at hv
        · exact hv
        · cases hv
      · have e : (acc N (off : Nat)).ext.prod = N := prod_dim N
        rw [e] at hv
        refine ⟨hv.size, fun r m k i v hm hk hi hv' => hv.hsome r m k i v hm hk hi ?_⟩
        simp only [rs] at hv'
        split at hv'
        · rename_i hin
          rw [← hv']
          by_cases hS : S r k i
          · rw [mark_pos hS]
            have : ¬ (off ≤ i ∧ i < off + num) := by omega
            simp only [cont, c', this, if_false]
          · rw [mark_neg hS]; rfl
        · cases hv')
    (fun r m k q hm hk hq => ⟨cs (j + q) r k, by
        have : j ≤ j + q ∧ j + q < j + num := by omega
        simp only [rs, this, and_self, if_true], by
        have : off ≤ off + q ∧ off + q < off + num := by omega
        simp only [cont, c', this, and_self, if_true, Nat.add_sub_cancel_left]⟩) (fun _ _ _ _ _ _ _ _ => rfl)).run hb
  refine ⟨b', h1, h2.1, view_mark h3 ?_ ?_⟩
  · rintro r m' k i hm hk _ ⟨h, _⟩
    rfl
  · intro r m' k i hm hk _ hD
    have : ¬ (off ≤ i ∧ i < off + num) := fun e => hD ⟨e, m', hm, hk⟩
    simp [this]

/-- Byte-wise copies of buffers which only contain trivial objects. -/
theorem bytes_ok (hT : ArrSpec.trivial L = true) {P : Nat} {b : Block V} {c : Nat → Cell V} (hb : View L P b (cont c)) :
    View L P b.bytes (cont c) := by
  refine ⟨hb.size, ?_, fun r m k i hm hk hi hv => by cases hv⟩
  intro r m k i v hm hk hi hv j hj
  have h := hb.hsome r m k i v hm hk hi hv j hj
  have ht : m.ty.triv = true := by
    have := List.all_eq_true.mp hT m (List.mem_of_getElem? hm)
    simpa using this
  simp only [Block.bytes, h, MByte.nonTriv, ht, Bool.not_true, Bool.false_eq_true, if_false]

end SArr

section
variable {V : Type} [DecidableEq V]
open SArr

/-- The array `a` of capacity `N` holds the list `l`; all `N` structs exist. -/
structure Rep (L : Layout V) (a : SArr V) (N : Nat) (l : List (Cell V)) : Prop where
  cap : a.N = N
  len : a.n = l.length
  fits : l.length ≤ N
  int : N < 2 ^ 31
  size : a.data.size = aggSize L * N
  cells : ∃ c : Nat → Cell V, View L (dim N).prod a.data (cont c) ∧ ∀ i, i < l.length → l[i]? = some (c i)

/-- States of the program and of the specification correspond. -/
def ArrR (L : Layout V) (w : ArrWorld V) (σ : ArrSpec.State V) : Prop :=
  ∀ s, match σ s with
    | none => w.a s = none
    | some (N, l) => ∃ a, w.a s = some a ∧ Rep L a N l

theorem ArrR.init (L : Layout V) : ArrR L ArrWorld.init ArrSpec.start := fun _ => rfl

theorem ArrR.absent {L : Layout V} {w : ArrWorld V} {σ : ArrSpec.State V} (h : ArrR L w σ) {s : Nat} (hs : σ s = none) :
    w.a s = none := by have := h s; rw [hs] at this; exact this

theorem ArrR.arr {L : Layout V} {w : ArrWorld V} {σ : ArrSpec.State V} (h : ArrR L w σ) {s N : Nat} {l : List (Cell V)}
    (hs : σ s = some (N, l)) : ∃ a, w.a s = some a ∧ Rep L a N l := by have := h s; rw [hs] at this; exact this

theorem ArrR.upd {L : Layout V} {w : ArrWorld V} {σ : ArrSpec.State V} (h : ArrR L w σ) {s N : Nat} {l : List (Cell V)}
    {a : SArr V} (ha : Rep L a N l) {gone : List (Block V)} :
    ArrR L ⟨ArrWorld.upd w.a s (some a), gone⟩ (ArrWorld.upd σ s (some (N, l))) := by
  intro s'
  by_cases e : s' = s
  · subst e; simp only [ArrWorld.upd, if_true]; exact ⟨a, rfl, ha⟩
  · simp only [ArrWorld.upd, e, if_false]; exact h s'

theorem ArrR.rm {L : Layout V} {w : ArrWorld V} {σ : ArrSpec.State V} (h : ArrR L w σ) {s : Nat} {gone : List (Block V)} :
    ArrR L ⟨ArrWorld.upd w.a s none, gone⟩ (ArrWorld.upd σ s none) := by
  intro s'
  by_cases e : s' = s
  · subst e; simp only [ArrWorld.upd, if_true]
  · simp only [ArrWorld.upd, e, if_false]; exact h s'

theorem ArrR.keep {L : Layout V} {w : ArrWorld V} {σ : ArrSpec.State V} (h : ArrR L w σ) {s N : Nat} {l : List (Cell V)}
    (hs : σ s = some (N, l)) {a : SArr V} (ha : Rep L a N l) {gone : List (Block V)} :
    ArrR L ⟨ArrWorld.upd w.a s (some a), gone⟩ σ := by
  have := h.upd (s := s) ha (gone := gone)
  have e : ArrWorld.upd σ s (some (N, l)) = σ := by
    funext s'; by_cases e : s' = s
    · subst e; simp [ArrWorld.upd, hs]
    · simp [ArrWorld.upd, e]
  rwa [e] at this

theorem toInt32_small {n : Nat} (h : n < 2 ^ 31) : toInt32 n = n := by
  unfold toInt32
  have : n % 2 ^ 32 = n := Nat.mod_eq_of_lt (by omega)
  rw [this, if_pos h]


/-! ### Operations on represented arrays -/
variable {L : Layout V}

theorem Rep.mk' {N : Nat} {l : List (Cell V)} {b : Block V} {c : Nat → Cell V} (hf : l.length ≤ N) (hi : N < 2 ^ 31)
    (hs : b.size = aggSize L * N) (hv : View L (dim N).prod b (cont c)) (hl : ∀ i, i < l.length → l[i]? = some (c i)) :
    Rep L ⟨N, l.length, b⟩ N l := ⟨rfl, rfl, hf, hi, hs, c, hv, hl⟩

theorem Rep.setAt (hL : L.WF) {a : SArr V} {N : Nat} {l : List (Cell V)} (h : Rep L a N l) {i : Nat} (hi : i < l.length)
    (v : Cell V) : ∃ b, (acc a.N (i : Nat)).setCell L v a.data = .ok b ∧ Rep L { a with data := b } N (l.set i v) := by
  obtain ⟨hc, hl, hf, hint, hs, c, hv, hcs⟩ := h
  rw [hc]
  obtain ⟨b, h1, h2, h3⟩ := setCell_ok hL (show i < N by omega) hv v
  refine ⟨b, h1, rfl, by rw [List.length_set]; exact hl, by rw [List.length_set]; exact hf, hint, h2.trans hs, _, h3, ?_⟩
  intro j hj
  rw [List.length_set] at hj
  by_cases e : j = i
  · subst e; simp [hj]
  · rw [List.getElem?_set_ne (by omega)]; simp [e, hcs j hj]

theorem Rep.getAt (hL : L.WF) {a : SArr V} {N : Nat} {l : List (Cell V)} (h : Rep L a N l) {i : Nat} {c : Cell V}
    (hi : l[i]? = some c) (t : Cell V) : (acc a.N (i : Nat)).getCell L a.data t = .ok (overlay L c t) := by
  obtain ⟨hc, hl, hf, hint, hs, cs, hv, hcs⟩ := h
  have hlt : i < l.length := by
    rcases Nat.lt_or_ge i l.length with h | h
    · exact h
    · rw [List.getElem?_eq_none h] at hi; cases hi
  rw [hc, getCell_eq hL (show i < N by omega) hv t]
  have := hcs i hlt
  rw [hi] at this; cases this; rfl

theorem Rep.pushBack (hL : L.WF) {a : SArr V} {N : Nat} {l : List (Cell V)} (h : Rep L a N l) (hlt : l.length < N)
    (v : Cell V) : ∃ a', SArr.push L a v = .ok () a' ∧ Rep L a' N (l ++ [v]) := by
  obtain ⟨hc, hl, hf, hint, hs, cs, hv, hcs⟩ := h
  obtain ⟨b, h1, h2, h3⟩ := setCell_ok hL hlt hv v
  refine ⟨⟨a.N, a.n + 1, b⟩, ?_, hc, by simp [hl], by simp; omega, hint, h2.trans hs, _, h3, ?_⟩
  · unfold SArr.push accSz
    rw [if_neg (by omega), hl, toInt32_small (by omega), hc, h1]
  · intro j hj
    simp only [List.length_append, List.length_cons, List.length_nil] at hj
    by_cases e : j = l.length
    · subst e; simp
    · rw [List.getElem?_append_left (by omega)]; simp [e, hcs j (by omega)]

theorem Rep.take {a : SArr V} {N : Nat} {l : List (Cell V)} (h : Rep L a N l) {n : Nat} (hn : n ≤ l.length) :
    Rep L ⟨a.N, n, a.data⟩ N (l.take n) := by
  obtain ⟨hc, hl, hf, hint, hs, cs, hv, hcs⟩ := h
  refine ⟨hc, by simp; omega, by simp; omega, hint, hs, cs, hv, ?_⟩
  intro i hi
  rw [List.length_take] at hi
  rw [List.getElem?_take, if_pos (by omega)]
  exact hcs i (by omega)

theorem Rep.bytewise (hT : ArrSpec.trivial L = true) {a : SArr V} {N : Nat} {l : List (Cell V)} (h : Rep L a N l) :
    Rep L ⟨a.N, a.n, a.data.bytes⟩ N l := by
  obtain ⟨hc, hl, hf, hint, hs, cs, hv, hcs⟩ := h
  exact ⟨hc, hl, hf, hint, hs, cs, bytes_ok hT hv, hcs⟩

theorem Rep.copyIn (hL : L.WF) {a : SArr V} {N : Nat} {b : Block V} {c : Nat → Cell V} (hN : a.N = N) (hb : a.data = b)
    (hint : N < 2 ^ 31) (hs : b.size = aggSize L * N) (hv : View L (dim N).prod b (cont c))
    {o : SArr V} {M : Nat} {l' : List (Cell V)} (ho : Rep L o M l') (hle : l'.length ≤ N) {src : Block V → Block V}
    (hsrc : src = (fun _ => o.data) ∨ (src = id ∧ o = a)) :
    ∃ a', SArr.copyIn L a o.N o.n src = .ok () a' ∧ Rep L a' N l' := by
  obtain ⟨hc', hl', hf', hint', hs', cs, hv', hcs⟩ := ho
  subst hb
  have hs2 : ∃ cs', ((∃ sb, src = (fun _ => sb) ∧ View L (dim M).prod sb (cont cs')) ∨ (src = id ∧ N = M ∧ cs' = c)) ∧
      ∀ i, i < l'.length → ∀ r m k, L[r]? = some m → k < m.elems → cs' i r k = cs i r k := by
    rcases hsrc with rfl | ⟨rfl, rfl⟩
    · exact ⟨cs, .inl ⟨_, rfl, hv'⟩, fun _ _ _ _ _ _ _ => rfl⟩
    · have hNM : N = M := hN.symm.trans hc'
      subst hNM
      refine ⟨c, .inr ⟨rfl, rfl, rfl⟩, fun i hi r m k hm hk => ?_⟩
      have hp : i < (dim N).prod := by rw [prod_dim]; omega
      have e1 := hv.read hL hm hk hp rfl
      have e2 := hv'.read hL hm hk hp rfl
      rw [e1] at e2
      injection e2
  obtain ⟨cs', hs2, hs3⟩ := hs2
  obtain ⟨b', h1, h2, h3⟩ := copyMembers_ok hL hle hf' hv hs2
  refine ⟨⟨a.N, o.n, b'⟩, ?_, hN, hl', hle, hint, h2.trans hs, fun i => if i < l'.length then cs i else c i, ?_, ?_⟩
  · unfold SArr.copyIn
    rw [if_neg (by omega), hN, hc', hl', h1]
  · refine h3.congr (fun r m k i hm hk hi => ?_)
    simp only [cont]
    by_cases h : i < l'.length
    · simp only [h, if_true]; rw [hs3 i h r m k hm hk]
    · simp only [h, if_false]
  · intro i hi
    simp only [hi, if_true]; exact hcs i hi

theorem Rep.load (hL : L.WF) {a : SArr V} {N : Nat} {l : List (Cell V)} (h : Rep L a N l) {o : SArr V} {M : Nat}
    {l' : List (Cell V)} (ho : Rep L o M l') {src : Block V → Block V} {j num off : Nat}
    (hsrc : src = (fun _ => o.data) ∨ (src = id ∧ o = a ∧ (j + num ≤ off ∨ off + num ≤ j)))
    (hoff : off ≤ l.length) (hj : j + num ≤ l'.length) (hle : num + off ≤ N) :
    ∃ a', SArr.load L a o.N src j num off = .ok () a' ∧
      Rep L a' N (ArrSpec.overwrite l ((l'.drop j).take num) off) := by
  obtain ⟨hc', hl', hf', hint', hs', cs, hv', hcs⟩ := ho
  obtain ⟨hc, hl, hf, hint, hs, c, hv, hcs0⟩ := h
  have hs2 : ∃ cs', ((∃ sb, src = (fun _ => sb) ∧ View L (dim M).prod sb (cont cs')) ∨
        (src = id ∧ N = M ∧ cs' = c ∧ (j + num ≤ off ∨ off + num ≤ j))) ∧
      ∀ i, i < l'.length → ∀ r m k, L[r]? = some m → k < m.elems → cs' i r k = cs i r k := by
    rcases hsrc with rfl | ⟨rfl, rfl, hd⟩
    · exact ⟨cs, .inl ⟨_, rfl, hv'⟩, fun _ _ _ _ _ _ _ => rfl⟩
    · have hNM : N = M := hc.symm.trans hc'
      subst hNM
      refine ⟨c, .inr ⟨rfl, rfl, rfl, hd⟩, fun i hi r m k hm hk => ?_⟩
      have hp : i < (dim N).prod := by rw [prod_dim]; omega
      have e1 := hv.read hL hm hk hp rfl
      have e2 := hv'.read hL hm hk hp rfl
      rw [e1] at e2
      injection e2
  obtain ⟨cs', hs2, hs3⟩ := hs2
  obtain ⟨b', h1, h2, h3⟩ := loadRaw_ok hL (show off + num ≤ N by omega) (show j + num ≤ M by omega) hv hs2
  have hmod : (num + off) % 2 ^ 64 = num + off := Nat.mod_eq_of_lt (by omega)
  have hlen : (ArrSpec.overwrite l ((l'.drop j).take num) off).length = max l.length (num + off) := by
    simp only [ArrSpec.overwrite, List.length_append, List.length_take, List.length_drop]
    omega
  refine ⟨⟨a.N, max a.n (num + off), b'⟩, ?_, hc, by rw [hlen, hl], by rw [hlen]; omega, hint, h2.trans hs,
    fun i => if off ≤ i ∧ i < off + num then cs (j + (i - off)) else c i, ?_, ?_⟩
  · unfold SArr.load accSz
    simp only [hmod]
    rw [if_neg (by omega), toInt32_small (by omega), hc, hc', h1]
  · refine h3.congr (fun r m k i hm hk hi => ?_)
    simp only [cont]
    by_cases h : off ≤ i ∧ i < off + num
    · simp only [h, and_self, if_true]; rw [hs3 (j + (i - off)) (by omega) r m k hm hk]
    · simp only [h, if_false]
  · intro i hi
    rw [hlen] at hi
    have hlen1 : (l.take off).length = off := by simp; omega
    have hlen2 : ((l'.drop j).take num).length = num := by simp; omega
    unfold ArrSpec.overwrite
    by_cases hA : i < off
    · have : ¬ (off ≤ i ∧ i < off + num) := by omega
      simp only [this, if_false]
      rw [List.append_assoc, List.getElem?_append_left (by omega), List.getElem?_take, if_pos hA]
      exact hcs0 i (by omega)
    · by_cases hB : i < off + num
      · have : off ≤ i ∧ i < off + num := by omega
        simp only [this, and_self, if_true]
        rw [List.append_assoc, List.getElem?_append_right (by omega), List.getElem?_append_left (by omega), hlen1,
          List.getElem?_take, if_pos (by omega), List.getElem?_drop]
        exact hcs _ (by omega)
      · have : ¬ (off ≤ i ∧ i < off + num) := by omega
        simp only [this, if_false]
        rw [List.getElem?_append_right (by simp only [List.length_append]; omega), List.getElem?_drop, hlen2]
        simp only [List.length_append, hlen1, hlen2]
        have e : off + num + (i - (off + num)) = i := by omega
        rw [e]
        exact hcs0 i (by omega)

theorem Rep.iter (hL : L.WF) {a : SArr V} {N : Nat} {l : List (Cell V)} (h : Rep L a N l) (t : Cell V) :
    SArr.iter L a t = .ok (l.map fun c => overlay L c t) := by
  have hn : toInt32 a.n = l.length := by rw [h.len]; exact toInt32_small (by have := h.fits; have := h.int; omega)
  unfold SArr.iter
  rw [hn, if_neg (by omega), Int.toNat_natCast, walk_eq]
  have := loopM_inv (fun n (out : List (Cell V)) => out = (l.take n).map fun c => overlay L c t) l.length
    (fun i l => ((acc a.N (0 + i)).getCell L a.data t).map fun c => l ++ [c]) [] (by simp) ?_
  · obtain ⟨out, h1, h2⟩ := this
    rw [h1, h2, List.take_length]
  · intro i hi out hout
    have hg : l[i]? = some l[i] := List.getElem?_eq_getElem hi
    rw [Int.zero_add, h.getAt hL hg t]
    refine ⟨_, rfl, ?_⟩
    rw [hout, List.take_add_one, hg]
    simp only [Option.toList, List.map_append, List.map_cons, List.map_nil]

theorem Rep.back (hL : L.WF) {a : SArr V} {N : Nat} {l : List (Cell V)} (h : Rep L a N l) {c : Cell V}
    (hc : l.getLast? = some c) (t : Cell V) :
    (SArr.accSz a.N (SArr.pred64 a.n)).getCell L a.data t = .ok (overlay L c t) := by
  rw [List.getLast?_eq_getElem?] at hc
  have hlt : l.length - 1 < l.length := by
    rcases Nat.lt_or_ge (l.length - 1) l.length with h | h
    · exact h
    · rw [List.getElem?_eq_none h] at hc; cases hc
  have hp : SArr.pred64 a.n = l.length - 1 := by
    have := h.fits
    have := h.int
    rw [h.len]; unfold SArr.pred64
    omega
  unfold SArr.accSz
  rw [hp, toInt32_small (by have := h.fits; have := h.int; omega)]
  exact h.getAt hL hc t

theorem Rep.pokeAt (hL : L.WF) {a : SArr V} {N : Nat} {l : List (Cell V)} (h : Rep L a N l) {i : Nat} {c : Cell V}
    (hi : l[i]? = some c) {r k : Nat} {m : Member V} (hm : L[r]? = some m) (hk : k < m.elems) (v : V) :
    ∃ b, a.data.assign ((acc a.N (i : Nat)).arrayRef L r m k) m.ty v = .ok b ∧
      Rep L { a with data := b } N (l.set i (c.set r k v)) := by
  obtain ⟨hc, hl, hf, hint, hs, cs, hv, hcs⟩ := h
  have hlt : i < l.length := by
    rcases Nat.lt_or_ge i l.length with h | h
    · exact h
    · rw [List.getElem?_eq_none h] at hi; cases hi
  have hci : cs i = c := by have := hcs i hlt; rw [hi] at this; cases this; rfl
  have hp : i < (dim N).prod := by rw [prod_dim]; omega
  let w : Cont V := fun _ _ _ => some v
  obtain ⟨b, h1, h2, h3⟩ := (Marks.assign (P := (dim N).prod) (c := cont cs) (w := w) hL hm hk hp
    (Acc.arrayRef_slot L (accAt_At (dim N) i) r m k (hL.elems_pos hm)) (v := v) rfl (fun _ => rfl)).run hv
  rw [hc]
  refine ⟨b, h1, rfl, by rw [List.length_set]; exact hl, by rw [List.length_set]; exact hf, hint, h2.1.trans hs,
    fun i' => if i' = i then c.set r k v else cs i', view_mark h3 ?_ ?_, ?_⟩
  · rintro r' m' k' i' hm' hk' _ ⟨rfl, rfl, rfl⟩
    simp [w, Cell.set]
  · intro r' m' k' i' hm' hk' _ hD
    by_cases e : i' = i
    · subst e
      have : ¬ (r' = r ∧ k' = k) := fun ⟨a, b⟩ => hD ⟨a, b, rfl⟩
      simp only [if_true, Cell.set, this, if_false, hci]
    · simp only [e, if_false]
  · intro j hj
    rw [List.length_set] at hj
    by_cases e : j = i
    · subst e; simp [hj]
    · rw [List.getElem?_set_ne (by omega)]; simp [e, hcs j hj]

theorem Rep.peekAt (hL : L.WF) {a : SArr V} {N : Nat} {l : List (Cell V)} (h : Rep L a N l) {i : Nat} {c : Cell V}
    (hi : l[i]? = some c) {r k : Nat} {m : Member V} (hm : L[r]? = some m) (hk : k < m.elems) :
    a.data.read ((acc a.N (i : Nat)).arrayRef L r m k) m.ty = .ok (c r k) := by
  obtain ⟨hc, hl, hf, hint, hs, cs, hv, hcs⟩ := h
  have hlt : i < l.length := by
    rcases Nat.lt_or_ge i l.length with h | h
    · exact h
    · rw [List.getElem?_eq_none h] at hi; cases hi
  have hci : cs i = c := by have := hcs i hlt; rw [hi] at this; cases this; rfl
  have hp : i < (dim N).prod := by rw [prod_dim]; omega
  have e : (acc a.N (i : Nat)).arrayRef L r m k = (slot (dim N).prod (offset L r) m.ty.size k i : Nat) := by
    rw [hc]; exact Acc.arrayRef_slot L (accAt_At (dim N) i) r m k (hL.elems_pos hm)
  rw [e]
  exact hv.read hL hm hk hp (by rw [← hci]; rfl)


theorem arr_load_aux (hL : L.WF) {w : ArrWorld V} {σ σ' : ArrSpec.State V} (hR : ArrR L w σ) {s t j num off N M : Nat}
    {l0 l : List (Cell V)} (hs : σ s = some (N, l0)) (_ht : σ t = some (M, l)) {a o : SArr V} (ha : w.a s = some a)
    (ho : w.a t = some o) (hrepa : Rep L a N l0) (hrep : Rep L o M l) (hself : s = t → j + num ≤ off ∨ off + num ≤ j)
    {op : ArrOp V} {out : ArrOut V}
    (h : (ArrSpec.load N l0 l j num off).map (fun p => (ArrWorld.upd σ s (some (N, p.1)), p.2)) = some (σ', out))
    (hop : w.step L op = w.modify s (SArr.load L a o.N (ArrWorld.srcOf s t o) j num off)) :
    ∃ w', w.step L op = .ok (w', out) ∧ ArrR L w' σ' := by
  rw [hop]
  unfold ArrSpec.load at h
  split at h
  · rename_i hc
    obtain ⟨h1, h2, h3⟩ := hc
    split at h
    · rename_i hle
      injection h with h; injection h with e1 e2; subst e1 e2
      obtain ⟨a', d1, d2⟩ := hrepa.load hL hrep (src := ArrWorld.srcOf s t o) (j := j) (num := num) (off := off) (by
        unfold ArrWorld.srcOf
        by_cases e : s = t
        · have hd := hself e
          subst e
          rw [ha] at ho; cases ho
          exact .inr ⟨by simp, rfl, hd⟩
        · exact .inl (by simp [e])) h1 h2 hle
      refine ⟨⟨ArrWorld.upd w.a s (some a'), w.gone⟩, ?_, hR.upd d2⟩
      simp only [d1, ArrWorld.modify]
    · rename_i hgt
      injection h with h; injection h with e1 e2; subst e1 e2
      refine ⟨⟨ArrWorld.upd w.a s (some a), w.gone⟩, ?_, hR.upd hrepa⟩
      have hmod : (num + off) % 2 ^ 64 = num + off := Nat.mod_eq_of_lt h3
      have : max a.n ((num + off) % 2 ^ 64) > a.N := by rw [hmod, hrepa.cap]; omega
      simp only [SArr.load, if_pos this, ArrWorld.modify]
      rfl
  · cases h

/-- Every operation within its contract is safe, and has the specified effect and result. -/
theorem arr_step_refines (hL : L.WF) (dv : V) {w : ArrWorld V} {σ σ' : ArrSpec.State V} (hR : ArrR L w σ) {op : ArrOp V}
    {out : ArrOut V} (h : ArrSpec.step L σ op = some (σ', out)) :
    ∃ w', w.step L op = .ok (w', out) ∧ ArrR L w' σ' := by
  cases op with
  | new s N n v =>
    simp only [ArrSpec.step] at h
    cases hs : σ s with
    | some p => rw [hs] at h; cases h
    | none =>
      simp only [hs] at h
      split at h
      · rename_i hn
        injection h with h; injection h with h1 h2; subst h1 h2
        obtain ⟨b, c1, c2, c3⟩ := constructAll_ok hL dv N
        obtain ⟨b', d1, d2, d3⟩ := fill_ok hL hn.1 c3 v
        have e : SArr.new L N n v = .ok ⟨N, n, b'⟩ := by
          unfold SArr.new
          rw [c1, toInt32_small (by omega)]
          show (walk ((n : Int)).toNat 0 _ b).map _ = _
          rw [Int.toNat_natCast, d1]; rfl
        refine ⟨⟨ArrWorld.upd w.a s (some ⟨N, n, b'⟩), w.gone⟩, ?_, hR.upd ?_⟩
        · simp only [ArrWorld.step, hR.absent hs, e]
        · exact ⟨rfl, by simp, by simp; exact hn.1, hn.2, d2.trans c2, _, d3, fun i hi => by
            rw [List.length_replicate] at hi
            simp [hi]⟩
      · cases h
  | copy s N t cst =>
    simp only [ArrSpec.step] at h
    cases hs : σ s with
    | some p => rw [hs] at h; cases h
    | none =>
      cases ht : σ t with
      | none => rw [hs, ht] at h; cases h
      | some p =>
        obtain ⟨M, l⟩ := p
        simp only [hs, ht] at h
        obtain ⟨o, ho, hrep⟩ := hR.arr ht
        split at h
        · rename_i hc
          by_cases hb : cst = true ∧ N = o.N
          · have hNM : N = M := hb.2.trans hrep.cap
            have hT := hc.2 hb.1 hNM
            have hle : l.length ≤ N := by rw [hNM]; exact hrep.fits
            rw [if_pos hle] at h
            injection h with h; injection h with h1 h2; subst h1 h2
            refine ⟨⟨ArrWorld.upd w.a s (some ⟨o.N, o.n, o.data.bytes⟩), w.gone⟩, ?_, hR.upd ?_⟩
            · simp only [ArrWorld.step, hR.absent hs, ArrWorld.withA, ho, if_pos hb]
            · rw [hNM]; exact hrep.bytewise hT
          · obtain ⟨b, c1, c2, c3⟩ := constructAll_ok hL dv N
            split at h
            · rename_i hle
              injection h with h; injection h with h1 h2; subst h1 h2
              obtain ⟨a', d1, d2⟩ := Rep.copyIn (a := ⟨N, 0, b⟩) hL rfl rfl hc.1 c2 c3 hrep hle
                (src := fun _ => o.data) (.inl rfl)
              refine ⟨⟨ArrWorld.upd w.a s (some a'), w.gone⟩, ?_, hR.upd d2⟩
              simp only [ArrWorld.step, hR.absent hs, ArrWorld.withA, ho, if_neg hb, c1, d1]
            · rename_i hgt
              injection h with h; injection h with h1 h2; subst h1 h2
              refine ⟨⟨w.a, b :: w.gone⟩, ?_, hR⟩
              have : o.n > N := by rw [hrep.len]; omega
              simp only [ArrWorld.step, hR.absent hs, ArrWorld.withA, ho, if_neg hb, c1, SArr.copyIn, if_pos this]
              rfl
        · cases h
  | assign s t cst =>
    simp only [ArrSpec.step] at h
    cases hs : σ s with
    | none => rw [hs] at h; cases h
    | some p0 =>
      obtain ⟨N, l0⟩ := p0
      cases ht : σ t with
      | none => rw [hs, ht] at h; cases h
      | some p =>
        obtain ⟨M, l⟩ := p
        simp only [hs, ht] at h
        obtain ⟨a, ha, hrepa⟩ := hR.arr hs
        obtain ⟨o, ho, hrep⟩ := hR.arr ht
        split at h
        · rename_i hc
          by_cases hb : cst = true ∧ a.N = o.N
          · have hNM : N = M := by rw [← hrepa.cap, ← hrep.cap]; exact hb.2
            have hT := hc hb.1 hNM
            have hle : l.length ≤ N := by rw [hNM]; exact hrep.fits
            rw [if_pos hle] at h
            injection h with h; injection h with h1 h2; subst h1 h2
            refine ⟨⟨ArrWorld.upd w.a s (some ⟨o.N, o.n, o.data.bytes⟩), w.gone⟩, ?_, hR.upd ?_⟩
            · simp only [ArrWorld.step, ArrWorld.withA, ha, ho, if_pos hb]
            · rw [hNM]; exact hrep.bytewise hT
          · split at h
            · rename_i hle
              injection h with h; injection h with h1 h2; subst h1 h2
              obtain ⟨c, hv, _⟩ := hrepa.cells
              obtain ⟨a', d1, d2⟩ := Rep.copyIn hL hrepa.cap rfl hrepa.int hrepa.size hv hrep hle
                (src := ArrWorld.srcOf s t o) (by
                  unfold ArrWorld.srcOf
                  by_cases e : s = t
                  · subst e
                    rw [ha] at ho; cases ho
                    exact .inr ⟨by simp, rfl⟩
                  · exact .inl (by simp [e]))
              refine ⟨⟨ArrWorld.upd w.a s (some a'), w.gone⟩, ?_, hR.upd d2⟩
              simp only [ArrWorld.step, ArrWorld.withA, ha, ho, if_neg hb, d1, ArrWorld.modify]
            · rename_i hgt
              injection h with h; injection h with h1 h2; subst h1 h2
              refine ⟨⟨ArrWorld.upd w.a s (some a), w.gone⟩, ?_, hR.keep hs hrepa⟩
              have : o.n > a.N := by rw [hrep.len, hrepa.cap]; omega
              simp only [ArrWorld.step, ArrWorld.withA, ha, ho, if_neg hb, SArr.copyIn, if_pos this, ArrWorld.modify]
              rfl
        · cases h
  | destroy s =>
    simp only [ArrSpec.step] at h
    cases hs : σ s with
    | none => rw [hs] at h; cases h
    | some p =>
      obtain ⟨N, l⟩ := p
      simp only [hs] at h
      injection h with h; injection h with h1 h2; subst h1 h2
      obtain ⟨a, ha, hrep⟩ := hR.arr hs
      obtain ⟨c, hv, _⟩ := hrep.cells
      obtain ⟨b, d1, _⟩ := dtor_ok (n := a.n) hL hrep.size hv
      have e : (⟨N, a.n, a.data⟩ : SArr V) = a := by rw [← hrep.cap]
      rw [e] at d1
      refine ⟨⟨ArrWorld.upd w.a s none, b :: w.gone⟩, ?_, hR.rm⟩
      simp only [ArrWorld.step, ArrWorld.withA, ha, d1]
  | set s i v =>
    simp only [ArrSpec.step] at h
    cases hs : σ s with
    | none => rw [hs] at h; cases h
    | some p =>
      obtain ⟨N, l⟩ := p
      simp only [hs] at h
      split at h
      · rename_i hi
        injection h with h; injection h with h1 h2; subst h1 h2
        obtain ⟨a, ha, hrep⟩ := hR.arr hs
        obtain ⟨b, d1, d2⟩ := hrep.setAt hL (show i.toNat < l.length by omega) v
        have e : ((i.toNat : Nat) : Int) = i := Int.toNat_of_nonneg hi.1
        rw [e] at d1
        refine ⟨⟨ArrWorld.upd w.a s (some { a with data := b }), w.gone⟩, ?_, hR.upd d2⟩
        simp only [ArrWorld.step, ArrWorld.withA, ha, d1, ArrWorld.wr]
      · cases h
  | get s i t =>
    simp only [ArrSpec.step] at h
    cases hs : σ s with
    | none => rw [hs] at h; cases h
    | some p =>
      obtain ⟨N, l⟩ := p
      simp only [hs] at h
      split at h
      · cases h
      · rename_i hi
        split at h
        · rename_i c hc
          injection h with h; injection h with h1 h2; subst h1 h2
          obtain ⟨a, ha, hrep⟩ := hR.arr hs
          have d1 := hrep.getAt hL hc t
          have e : ((i.toNat : Nat) : Int) = i := Int.toNat_of_nonneg (by omega)
          rw [e] at d1
          refine ⟨w, ?_, hR⟩
          simp only [ArrWorld.step, ArrWorld.withA, ha, d1, ArrWorld.ro]
        · cases h
  | poke s i r k v =>
    simp only [ArrSpec.step] at h
    cases hs : σ s with
    | none => rw [hs] at h; cases h
    | some p =>
      obtain ⟨N, l⟩ := p
      cases hm : L[r]? with
      | none => rw [hs, hm] at h; cases h
      | some m =>
        simp only [hs, hm] at h
        split at h
        · cases h
        · rename_i hi
          split at h
          · rename_i c hc
            injection h with h; injection h with h1 h2; subst h1 h2
            obtain ⟨a, ha, hrep⟩ := hR.arr hs
            obtain ⟨b, d1, d2⟩ := hrep.pokeAt hL hc hm (k := k) (by omega) v
            have e : ((i.toNat : Nat) : Int) = i := Int.toNat_of_nonneg (by omega)
            rw [e] at d1
            refine ⟨⟨ArrWorld.upd w.a s (some { a with data := b }), w.gone⟩, ?_, hR.upd d2⟩
            simp only [ArrWorld.step, ArrWorld.withA, ha, hm, d1, ArrWorld.wr]
          · cases h
  | peek s i r k =>
    simp only [ArrSpec.step] at h
    cases hs : σ s with
    | none => rw [hs] at h; cases h
    | some p =>
      obtain ⟨N, l⟩ := p
      cases hm : L[r]? with
      | none => rw [hs, hm] at h; cases h
      | some m =>
        simp only [hs, hm] at h
        split at h
        · cases h
        · rename_i hi
          split at h
          · rename_i c hc
            injection h with h; injection h with h1 h2; subst h1 h2
            obtain ⟨a, ha, hrep⟩ := hR.arr hs
            have d1 := hrep.peekAt hL hc hm (k := k) (by omega)
            have e : ((i.toNat : Nat) : Int) = i := Int.toNat_of_nonneg (by omega)
            rw [e] at d1
            refine ⟨w, ?_, hR⟩
            simp only [ArrWorld.step, ArrWorld.withA, ha, hm, d1, ArrWorld.ro]
          · cases h
  | push s c =>
    simp only [ArrSpec.step] at h
    cases hs : σ s with
    | none => rw [hs] at h; cases h
    | some p =>
      obtain ⟨N, l⟩ := p
      simp only [hs] at h
      obtain ⟨a, ha, hrep⟩ := hR.arr hs
      split at h
      · rename_i hlt
        injection h with h; injection h with h1 h2; subst h1 h2
        obtain ⟨a', d1, d2⟩ := hrep.pushBack hL hlt c
        refine ⟨⟨ArrWorld.upd w.a s (some a'), w.gone⟩, ?_, hR.upd d2⟩
        simp only [ArrWorld.step, ArrWorld.withA, ha, d1, ArrWorld.modify]
      · rename_i hge
        injection h with h; injection h with h1 h2; subst h1 h2
        refine ⟨⟨ArrWorld.upd w.a s (some a), w.gone⟩, ?_, hR.keep hs hrep⟩
        have : a.n ≥ a.N := by rw [hrep.len, hrep.cap]; omega
        simp only [ArrWorld.step, ArrWorld.withA, ha, SArr.push, if_pos this, ArrWorld.modify]
  | pop s =>
    simp only [ArrSpec.step] at h
    cases hs : σ s with
    | none => rw [hs] at h; cases h
    | some p =>
      obtain ⟨N, l⟩ := p
      simp only [hs] at h
      obtain ⟨a, ha, hrep⟩ := hR.arr hs
      split at h
      · rename_i hnil
        injection h with h; injection h with h1 h2; subst h1 h2
        refine ⟨⟨ArrWorld.upd w.a s (some a), w.gone⟩, ?_, hR.keep hs hrep⟩
        have : a.n = 0 := by rw [hrep.len, hnil]; rfl
        simp only [ArrWorld.step, ArrWorld.withA, ha, SArr.pop, if_pos this, ArrWorld.modify]
      · rename_i hne
        injection h with h; injection h with h1 h2; subst h1 h2
        have hpos : 0 < l.length := List.length_pos_iff.mpr hne
        have : ¬ a.n = 0 := by rw [hrep.len]; omega
        refine ⟨⟨ArrWorld.upd w.a s (some ⟨a.N, a.n - 1, a.data⟩), w.gone⟩, ?_, hR.upd ?_⟩
        · simp only [ArrWorld.step, ArrWorld.withA, ha, SArr.pop, if_neg this, ArrWorld.modify]
        · rw [List.dropLast_eq_take, hrep.len]
          exact hrep.take (by omega)
  | clear s =>
    simp only [ArrSpec.step] at h
    cases hs : σ s with
    | none => rw [hs] at h; cases h
    | some p =>
      obtain ⟨N, l⟩ := p
      simp only [hs] at h
      injection h with h; injection h with h1 h2; subst h1 h2
      obtain ⟨a, ha, hrep⟩ := hR.arr hs
      refine ⟨⟨ArrWorld.upd w.a s (some { a with n := 0 }), w.gone⟩, ?_, hR.upd ?_⟩
      · simp only [ArrWorld.step, ArrWorld.withA, ha]
      · have := hrep.take (n := 0) (by omega)
        simpa using this
  | back s t =>
    simp only [ArrSpec.step] at h
    cases hs : σ s with
    | none => rw [hs] at h; cases h
    | some p =>
      obtain ⟨N, l⟩ := p
      simp only [hs] at h
      split at h
      · rename_i c hc
        injection h with h; injection h with h1 h2; subst h1 h2
        obtain ⟨a, ha, hrep⟩ := hR.arr hs
        have d1 := hrep.back hL hc t
        refine ⟨w, ?_, hR⟩
        simp only [ArrWorld.step, ArrWorld.withA, ha, d1, ArrWorld.ro]
      · cases h
  | load s t j num off =>
    simp only [ArrSpec.step] at h
    cases hs : σ s with
    | none => rw [hs] at h; cases h
    | some p0 =>
      obtain ⟨N, l0⟩ := p0
      cases ht : σ t with
      | none => rw [hs, ht] at h; cases h
      | some p =>
        obtain ⟨M, l⟩ := p
        simp only [hs, ht] at h
        obtain ⟨a, ha, hrepa⟩ := hR.arr hs
        obtain ⟨o, ho, hrep⟩ := hR.arr ht
        split at h
        · rename_i hself
          exact arr_load_aux hL hR hs ht ha ho hrepa hrep hself h (by simp only [ArrWorld.step, ArrWorld.withA, ha, ho])
        · cases h
  | append s t j num =>
    simp only [ArrSpec.step] at h
    cases hs : σ s with
    | none => rw [hs] at h; cases h
    | some p0 =>
      obtain ⟨N, l0⟩ := p0
      cases ht : σ t with
      | none => rw [hs, ht] at h; cases h
      | some p =>
        obtain ⟨M, l⟩ := p
        simp only [hs, ht] at h
        obtain ⟨a, ha, hrepa⟩ := hR.arr hs
        obtain ⟨o, ho, hrep⟩ := hR.arr ht
        have hself : s = t → j + num ≤ l0.length ∨ l0.length + num ≤ j ∨ ¬ j + num ≤ l.length := by
          intro e; subst e; rw [hs] at ht; cases ht; omega
        by_cases hjn : j + num ≤ l.length
        · exact arr_load_aux hL hR hs ht ha ho hrepa hrep (fun e => by have := hself e; omega) h
            (by simp only [ArrWorld.step, ArrWorld.withA, ha, ho, hrepa.len])
        · have : ¬ (l0.length ≤ l0.length ∧ j + num ≤ l.length ∧ num + l0.length < 2 ^ 64) := fun e => hjn e.2.1
          simp only [ArrSpec.load, this, if_false] at h
          cases h
  | size s =>
    simp only [ArrSpec.step] at h
    cases hs : σ s with
    | none => rw [hs] at h; cases h
    | some p =>
      obtain ⟨N, l⟩ := p
      simp only [hs] at h
      injection h with h; injection h with h1 h2; subst h1 h2
      obtain ⟨a, ha, hrep⟩ := hR.arr hs
      exact ⟨w, by simp only [ArrWorld.step, ArrWorld.withA, ha, hrep.len], hR⟩
  | capacity s =>
    simp only [ArrSpec.step] at h
    cases hs : σ s with
    | none => rw [hs] at h; cases h
    | some p =>
      obtain ⟨N, l⟩ := p
      simp only [hs] at h
      injection h with h; injection h with h1 h2; subst h1 h2
      obtain ⟨a, ha, hrep⟩ := hR.arr hs
      exact ⟨w, by simp only [ArrWorld.step, ArrWorld.withA, ha, hrep.cap], hR⟩
  | byteSize s =>
    simp only [ArrSpec.step] at h
    cases hs : σ s with
    | none => rw [hs] at h; cases h
    | some p =>
      obtain ⟨N, l⟩ := p
      simp only [hs] at h
      injection h with h; injection h with h1 h2; subst h1 h2
      obtain ⟨a, ha, hrep⟩ := hR.arr hs
      refine ⟨w, ?_, hR⟩
      have : aggSize L = (L.map fun m => m.ty.size * m.elems).sum := (structBytes_eq L).symm
      simp only [ArrWorld.step, ArrWorld.withA, ha, hrep.len, this]
  | iter s t =>
    simp only [ArrSpec.step] at h
    cases hs : σ s with
    | none => rw [hs] at h; cases h
    | some p =>
      obtain ⟨N, l⟩ := p
      simp only [hs] at h
      injection h with h; injection h with h1 h2; subst h1 h2
      obtain ⟨a, ha, hrep⟩ := hR.arr hs
      refine ⟨w, ?_, hR⟩
      simp only [ArrWorld.step, ArrWorld.withA, ha, hrep.iter hL t, ArrWorld.ro]
  | swap s t =>
    simp only [ArrSpec.step] at h
    cases hs : σ s with
    | none => rw [hs] at h; cases h
    | some p0 =>
      obtain ⟨N, l0⟩ := p0
      cases ht : σ t with
      | none => rw [hs, ht] at h; cases h
      | some p =>
        obtain ⟨M, l⟩ := p
        simp only [hs, ht] at h
        obtain ⟨a, ha, hrepa⟩ := hR.arr hs
        obtain ⟨o, ho, hrep⟩ := hR.arr ht
        split at h
        · rename_i hc
          obtain ⟨rfl, hT⟩ := hc
          injection h with h; injection h with h1 h2; subst h1 h2
          have e : a.N = o.N := by rw [hrepa.cap, hrep.cap]
          refine ⟨⟨ArrWorld.upd (ArrWorld.upd w.a s (some ⟨a.N, o.n, o.data.bytes⟩)) t
            (some ⟨o.N, a.n, a.data.bytes⟩), w.gone⟩, ?_, ?_⟩
          · simp only [ArrWorld.step, ArrWorld.withA, ha, ho]
          · have h1 : Rep L ⟨a.N, o.n, o.data.bytes⟩ N l := by rw [e]; exact hrep.bytewise hT
            have h2 : Rep L ⟨o.N, a.n, a.data.bytes⟩ N l0 := by rw [← e]; exact hrepa.bytewise hT
            exact (hR.upd (s := s) h1 (gone := w.gone)).upd (s := t) h2
        · cases h

/-- Whole programs. -/
theorem arr_run_refines (hL : L.WF) (dv : V) (ops : List (ArrOp V)) {w : ArrWorld V} {σ σ' : ArrSpec.State V}
    (hR : ArrR L w σ) {outs : List (ArrOut V)} (h : ArrSpec.run L σ ops = some (σ', outs)) :
    ∃ w', w.run L ops = .ok (w', outs) ∧ ArrR L w' σ' := by
  induction ops generalizing w σ outs with
  | nil =>
    simp only [ArrSpec.run] at h
    cases h
    exact ⟨w, rfl, hR⟩
  | cons op ops ih =>
    simp only [ArrSpec.run] at h
    cases h1 : ArrSpec.step L σ op with
    | none => rw [h1] at h; cases h
    | some p =>
      obtain ⟨σ1, out⟩ := p
      simp only [h1] at h
      cases h2 : ArrSpec.run L σ1 ops with
      | none => rw [h2] at h; cases h
      | some q =>
        obtain ⟨σ2, outs2⟩ := q
        simp only [h2] at h
        cases h
        obtain ⟨w1, e1, r1⟩ := arr_step_refines hL dv hR h1
        obtain ⟨w2, e2, r2⟩ := ih r1 h2
        exact ⟨w2, by simp only [ArrWorld.run, e1, e2], r2⟩

end
end LFA
