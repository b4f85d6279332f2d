/-
  What the operations of `short_vec` have to do, in terms of lanes and memory.
-/
import Verif.SV.Impl
set_option autoImplicit false

namespace LFA.SV

/-- Element by element. -/
def map2? {α β γ : Type} (f : α → β → Option γ) : List α → List β → Option (List γ)
  | a :: as, b :: bs => do
    let c ← f a b
    let cs ← map2? f as bs
    some (c :: cs)
  | _, _ => some []

/-- Element by element. -/
def map1? {α β : Type} (f : α → Option β) : List α → Option (List β)
  | [] => some []
  | a :: as => do
    let b ← f a
    let bs ← map1? f as
    some (b :: bs)

section
variable {w : Nat} {V M : Type}

/-- A binary operation which computes lane `i` of the result as `f a[i] b[i]`. It has to be defined whenever all of these are. -/
def BinLaw (lanes : V → List (BitVec w)) (op : V → V → Option V) (f : BitVec w → BitVec w → Option (BitVec w)) : Prop :=
  ∀ a b r, map2? f (lanes a) (lanes b) = some r → ∃ v, op a b = some v ∧ lanes v = r

/-- A unary operation. -/
def UnLaw (lanes : V → List (BitVec w)) (op : V → Option V) (f : BitVec w → Option (BitVec w)) : Prop :=
  ∀ a r, map1? f (lanes a) = some r → ∃ v, op a = some v ∧ lanes v = r

/-- The number of lanes. -/
def LenLaw (N : Nat) (lanes : V → List (BitVec w)) : Prop := ∀ v, (lanes v).length = N

/-- All lanes are equal to the argument. -/
def BcastLaw (N : Nat) (lanes : V → List (BitVec w)) (bcast : BitVec w → V) : Prop := ∀ x, lanes (bcast x) = List.replicate N x

/-- The elements `p[0]`, …, `p[N - 1]` are accessible and have values `g 0`, …, `g (N - 1)`. -/
def At (m : Mem w) (p : Int) (N : Nat) (g : Nat → BitVec w) : Prop := ∀ k : Nat, k < N → m (p + k) = some (g k)

/-- `load`: lane `i` is `p[i]`, nothing else has to be accessible. The address has to be a multiple of `al` bytes. -/
def LoadLaw (N : Nat) (lanes : V → List (BitVec w)) (load : Mem w → Int → Option V) (al : Nat) : Prop :=
  ∀ m p g, aligned (w / 8) p al → At m p N g → ∃ v, load m p = some v ∧ lanes v = (List.range N).map g

/-- `store`: `p[i]` is lane `i`, all other elements keep their values. -/
def StoreLaw (N : Nat) (lanes : V → List (BitVec w)) (store : V → Int → Option (Writes w)) (al : Nat) : Prop :=
  ∀ m v p, aligned (w / 8) p al → (∀ k : Nat, k < N → (m (p + k)).isSome) →
    ∃ ws m', store v p = some ws ∧ applyW m ws = some m' ∧ At m' p N (fun k => (lanes v).getD k 0) ∧
      ∀ a, (∀ k : Nat, k < N → a ≠ p + k) → m' a = m a

/-- `gather`: lane `i` is `p[offsets[i]]`. `al` is the required alignment of the offsets, `neg` tells if these may be negative. -/
def GatherLaw (N : Nat) (lanes : V → List (BitVec w)) (gather : Mem w → Mem 32 → Int → Int → Option V) (al : Nat) (neg : Bool) :
    Prop :=
  ∀ m mo p o (off : Nat → BitVec 32) (g : Nat → BitVec w), aligned 4 o al → (neg = false → ∀ k < N, 0 ≤ (off k).toInt) →
    At mo o N off → (∀ k < N, m (p + (off k).toInt) = some (g k)) → ∃ v, gather m mo p o = some v ∧ lanes v = (List.range N).map g

/-- `scatter`: lane `i` is stored to `p[offsets[i]]`, in the order of the lanes. -/
def ScatterLaw (N : Nat) (lanes : V → List (BitVec w)) (scatter : Mem 32 → V → Int → Int → Option (Writes w)) (al : Nat) : Prop :=
  ∀ mo v p o (off : Nat → BitVec 32), aligned 4 o al → At mo o N off →
    scatter mo v p o = some ((List.range N).map fun k => (p + (off k).toInt, (lanes v).getD k 0))

/-- Elements are separated by a comma and a blank. -/
def commaSep : List (BitVec w) → List (Out w)
  | [] => []
  | [x] => [.v x]
  | x :: y :: xs => .v x :: .s ", " :: commaSep (y :: xs)

/-- Output is a list of the lanes in brackets. -/
def PrintLaw (lanes : V → List (BitVec w)) (print : V → List (Out w)) : Prop :=
  ∀ v, print v = .s "[" :: commaSep (lanes v) ++ [.s "]"]

/-- A mask which selects exactly the lanes `i` with `bs[i]`: bit `i` of an integer, or all bits of lane `i` are set. -/
def MaskKind.Rep (lanes : V → List (BitVec w)) : MaskKind V M → M → List Bool → Prop
  | .bits b, m, bs => bs.length ≤ b ∧ ∀ i, BitVec.getLsbD m i = bs.getD i false
  | .vec, m, bs => lanes m = bs.map (pat w)

/-- A comparison selects those lanes for which `f` is true. -/
def CmpLaw (lanes : V → List (BitVec w)) (k : MaskKind V M) (op : V → V → Option M) (f : BitVec w → BitVec w → Bool) : Prop :=
  ∀ a b, ∃ m, op a b = some m ∧ k.Rep lanes m (List.zipWith f (lanes a) (lanes b))

/-- The lanes of `ys` where selected, otherwise those of `xs`. -/
def select : List Bool → List (BitVec w) → List (BitVec w) → List (BitVec w)
  | b :: bs, x :: xs, y :: ys => (if b then y else x) :: select bs xs ys
  | _, _, _ => []

/-- `blend` replaces exactly the selected lanes. -/
def BlendLaw (N : Nat) (lanes : V → List (BitVec w)) (k : MaskKind V M) (blend : V → M → V → V) : Prop :=
  ∀ a m b bs, bs.length = N → k.Rep lanes m bs → lanes (blend a m b) = select bs (lanes a) (lanes b)

/-- `any` tells if there is a selected lane. -/
def AnyLaw (N : Nat) (lanes : V → List (BitVec w)) (k : MaskKind V M) (any : M → Bool) : Prop :=
  ∀ m bs, bs.length = N → k.Rep lanes m bs → any m = bs.any id

/-- `v[i]` is lane `i`. -/
def IndexLaw (N : Nat) (lanes : V → List (BitVec w)) (index : V → BitVec 32 → Option (BitVec w)) : Prop :=
  ∀ v (i : Nat), i < N → index v (BitVec.ofNat 32 i) = some ((lanes v).getD i 0)

end

end LFA.SV
