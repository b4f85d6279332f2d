/-
  Generated by tools/sv_lemmas.py: quantifiers over 1, 2, 4, 8, 16 and 32 lanes, written out.
-/
import Verif.SV.Lemmas
set_option autoImplicit false

namespace LFA.SV
section
variable {w : Nat}

theorem at1 {m : Mem w} {p : Int} {g : Nat → BitVec w} (h : At m p 1 g) :
    m (p) = some (g 0) :=
  by simpa using h 0 (by decide)

theorem all1 {P : Nat → Prop} (h : ∀ k, k < 1 → P k) :
    P 0 :=
  h 0 (by decide)

theorem ofAll1 {P : Nat → Prop} (h : P 0) : ∀ k, k < 1 → P k
  | 0, _ => h
  | k + 1, hk => absurd hk (by omega)

theorem rm1 {α : Type} (g : Nat → α) : (List.range 1).map g = [g 0] := rfl

theorem len1 {α : Type} {l : List α} (h : l.length = 1) : ∃ b0, l = [b0] := by
  match l, h with
  | [b0], _ => exact ⟨b0, rfl⟩

theorem at2 {m : Mem w} {p : Int} {g : Nat → BitVec w} (h : At m p 2 g) :
    m (p) = some (g 0) ∧
    m (p + 1) = some (g 1) :=
  ⟨by simpa using h 0 (by decide), h 1 (by decide)⟩

theorem all2 {P : Nat → Prop} (h : ∀ k, k < 2 → P k) :
    P 0 ∧ P 1 :=
  ⟨h 0 (by decide), h 1 (by decide)⟩

theorem ofAll2 {P : Nat → Prop} (h : P 0 ∧ P 1) : ∀ k, k < 2 → P k
  | 0, _ => h.1
  | 1, _ => h.2
  | k + 2, hk => absurd hk (by omega)

theorem rm2 {α : Type} (g : Nat → α) : (List.range 2).map g = [g 0, g 1] := rfl

theorem len2 {α : Type} {l : List α} (h : l.length = 2) : ∃ b0 b1, l = [b0, b1] := by
  match l, h with
  | [b0, b1], _ => exact ⟨b0, b1, rfl⟩

theorem at4 {m : Mem w} {p : Int} {g : Nat → BitVec w} (h : At m p 4 g) :
    m (p) = some (g 0) ∧
    m (p + 1) = some (g 1) ∧
    m (p + 2) = some (g 2) ∧
    m (p + 3) = some (g 3) :=
  ⟨by simpa using h 0 (by decide), h 1 (by decide), h 2 (by decide), h 3 (by decide)⟩

theorem all4 {P : Nat → Prop} (h : ∀ k, k < 4 → P k) :
    P 0 ∧ P 1 ∧ P 2 ∧ P 3 :=
  ⟨h 0 (by decide), h 1 (by decide), h 2 (by decide), h 3 (by decide)⟩

theorem ofAll4 {P : Nat → Prop} (h : P 0 ∧ P 1 ∧ P 2 ∧ P 3) : ∀ k, k < 4 → P k
  | 0, _ => h.1
  | 1, _ => h.2.1
  | 2, _ => h.2.2.1
  | 3, _ => h.2.2.2
  | k + 4, hk => absurd hk (by omega)

theorem rm4 {α : Type} (g : Nat → α) : (List.range 4).map g = [g 0, g 1, g 2, g 3] := rfl

theorem len4 {α : Type} {l : List α} (h : l.length = 4) : ∃ b0 b1 b2 b3, l = [b0, b1, b2, b3] := by
  match l, h with
  | [b0, b1, b2, b3], _ => exact ⟨b0, b1, b2, b3, rfl⟩

theorem at8 {m : Mem w} {p : Int} {g : Nat → BitVec w} (h : At m p 8 g) :
    m (p) = some (g 0) ∧
    m (p + 1) = some (g 1) ∧
    m (p + 2) = some (g 2) ∧
    m (p + 3) = some (g 3) ∧
    m (p + 4) = some (g 4) ∧
    m (p + 5) = some (g 5) ∧
    m (p + 6) = some (g 6) ∧
    m (p + 7) = some (g 7) :=
  ⟨by simpa using h 0 (by decide), h 1 (by decide), h 2 (by decide), h 3 (by decide), h 4 (by decide), h 5 (by decide), h 6 (by decide), h 7 (by decide)⟩

theorem all8 {P : Nat → Prop} (h : ∀ k, k < 8 → P k) :
    P 0 ∧ P 1 ∧ P 2 ∧ P 3 ∧ P 4 ∧ P 5 ∧ P 6 ∧ P 7 :=
  ⟨h 0 (by decide), h 1 (by decide), h 2 (by decide), h 3 (by decide), h 4 (by decide), h 5 (by decide), h 6 (by decide), h 7 (by decide)⟩

theorem ofAll8 {P : Nat → Prop} (h : P 0 ∧ P 1 ∧ P 2 ∧ P 3 ∧ P 4 ∧ P 5 ∧ P 6 ∧ P 7) : ∀ k, k < 8 → P k
  | 0, _ => h.1
  | 1, _ => h.2.1
  | 2, _ => h.2.2.1
  | 3, _ => h.2.2.2.1
  | 4, _ => h.2.2.2.2.1
  | 5, _ => h.2.2.2.2.2.1
  | 6, _ => h.2.2.2.2.2.2.1
  | 7, _ => h.2.2.2.2.2.2.2
  | k + 8, hk => absurd hk (by omega)

theorem rm8 {α : Type} (g : Nat → α) : (List.range 8).map g = [g 0, g 1, g 2, g 3, g 4, g 5, g 6, g 7] := rfl

theorem len8 {α : Type} {l : List α} (h : l.length = 8) : ∃ b0 b1 b2 b3 b4 b5 b6 b7, l = [b0, b1, b2, b3, b4, b5, b6, b7] := by
  match l, h with
  | [b0, b1, b2, b3, b4, b5, b6, b7], _ => exact ⟨b0, b1, b2, b3, b4, b5, b6, b7, rfl⟩

theorem at16 {m : Mem w} {p : Int} {g : Nat → BitVec w} (h : At m p 16 g) :
    m (p) = some (g 0) ∧
    m (p + 1) = some (g 1) ∧
    m (p + 2) = some (g 2) ∧
    m (p + 3) = some (g 3) ∧
    m (p + 4) = some (g 4) ∧
    m (p + 5) = some (g 5) ∧
    m (p + 6) = some (g 6) ∧
    m (p + 7) = some (g 7) ∧
    m (p + 8) = some (g 8) ∧
    m (p + 9) = some (g 9) ∧
    m (p + 10) = some (g 10) ∧
    m (p + 11) = some (g 11) ∧
    m (p + 12) = some (g 12) ∧
    m (p + 13) = some (g 13) ∧
    m (p + 14) = some (g 14) ∧
    m (p + 15) = some (g 15) :=
  ⟨by simpa using h 0 (by decide), h 1 (by decide), h 2 (by decide), h 3 (by decide), h 4 (by decide), h 5 (by decide), h 6 (by decide), h 7 (by decide), h 8 (by decide), h 9 (by decide), h 10 (by decide), h 11 (by decide), h 12 (by decide), h 13 (by decide), h 14 (by decide), h 15 (by decide)⟩

theorem all16 {P : Nat → Prop} (h : ∀ k, k < 16 → P k) :
    P 0 ∧ P 1 ∧ P 2 ∧ P 3 ∧ P 4 ∧ P 5 ∧ P 6 ∧ P 7 ∧ P 8 ∧ P 9 ∧ P 10 ∧ P 11 ∧ P 12 ∧ P 13 ∧ P 14 ∧ P 15 :=
  ⟨h 0 (by decide), h 1 (by decide), h 2 (by decide), h 3 (by decide), h 4 (by decide), h 5 (by decide), h 6 (by decide), h 7 (by decide), h 8 (by decide), h 9 (by decide), h 10 (by decide), h 11 (by decide), h 12 (by decide), h 13 (by decide), h 14 (by decide), h 15 (by decide)⟩

theorem ofAll16 {P : Nat → Prop} (h : P 0 ∧ P 1 ∧ P 2 ∧ P 3 ∧ P 4 ∧ P 5 ∧ P 6 ∧ P 7 ∧ P 8 ∧ P 9 ∧ P 10 ∧ P 11 ∧ P 12 ∧ P 13 ∧ P 14 ∧ P 15) : ∀ k, k < 16 → P k
  | 0, _ => h.1
  | 1, _ => h.2.1
  | 2, _ => h.2.2.1
  | 3, _ => h.2.2.2.1
  | 4, _ => h.2.2.2.2.1
  | 5, _ => h.2.2.2.2.2.1
  | 6, _ => h.2.2.2.2.2.2.1
  | 7, _ => h.2.2.2.2.2.2.2.1
  | 8, _ => h.2.2.2.2.2.2.2.2.1
  | 9, _ => h.2.2.2.2.2.2.2.2.2.1
  | 10, _ => h.2.2.2.2.2.2.2.2.2.2.1
  | 11, _ => h.2.2.2.2.2.2.2.2.2.2.2.1
  | 12, _ => h.2.2.2.2.2.2.2.2.2.2.2.2.1
  | 13, _ => h.2.2.2.2.2.2.2.2.2.2.2.2.2.1
  | 14, _ => h.2.2.2.2.2.2.2.2.2.2.2.2.2.2.1
  | 15, _ => h.2.2.2.2.2.2.2.2.2.2.2.2.2.2.2
  | k + 16, hk => absurd hk (by omega)

theorem rm16 {α : Type} (g : Nat → α) : (List.range 16).map g = [g 0, g 1, g 2, g 3, g 4, g 5, g 6, g 7, g 8, g 9, g 10, g 11, g 12, g 13, g 14, g 15] := rfl

theorem len16 {α : Type} {l : List α} (h : l.length = 16) : ∃ b0 b1 b2 b3 b4 b5 b6 b7 b8 b9 b10 b11 b12 b13 b14 b15, l = [b0, b1, b2, b3, b4, b5, b6, b7, b8, b9, b10, b11, b12, b13, b14, b15] := by
  match l, h with
  | [b0, b1, b2, b3, b4, b5, b6, b7, b8, b9, b10, b11, b12, b13, b14, b15], _ => exact ⟨b0, b1, b2, b3, b4, b5, b6, b7, b8, b9, b10, b11, b12, b13, b14, b15, rfl⟩

theorem at32 {m : Mem w} {p : Int} {g : Nat → BitVec w} (h : At m p 32 g) :
    m (p) = some (g 0) ∧
    m (p + 1) = some (g 1) ∧
    m (p + 2) = some (g 2) ∧
    m (p + 3) = some (g 3) ∧
    m (p + 4) = some (g 4) ∧
    m (p + 5) = some (g 5) ∧
    m (p + 6) = some (g 6) ∧
    m (p + 7) = some (g 7) ∧
    m (p + 8) = some (g 8) ∧
    m (p + 9) = some (g 9) ∧
    m (p + 10) = some (g 10) ∧
    m (p + 11) = some (g 11) ∧
    m (p + 12) = some (g 12) ∧
    m (p + 13) = some (g 13) ∧
    m (p + 14) = some (g 14) ∧
    m (p + 15) = some (g 15) ∧
    m (p + 16) = some (g 16) ∧
    m (p + 17) = some (g 17) ∧
    m (p + 18) = some (g 18) ∧
    m (p + 19) = some (g 19) ∧
    m (p + 20) = some (g 20) ∧
    m (p + 21) = some (g 21) ∧
    m (p + 22) = some (g 22) ∧
    m (p + 23) = some (g 23) ∧
    m (p + 24) = some (g 24) ∧
    m (p + 25) = some (g 25) ∧
    m (p + 26) = some (g 26) ∧
    m (p + 27) = some (g 27) ∧
    m (p + 28) = some (g 28) ∧
    m (p + 29) = some (g 29) ∧
    m (p + 30) = some (g 30) ∧
    m (p + 31) = some (g 31) :=
  ⟨by simpa using h 0 (by decide), h 1 (by decide), h 2 (by decide), h 3 (by decide), h 4 (by decide), h 5 (by decide), h 6 (by decide), h 7 (by decide), h 8 (by decide), h 9 (by decide), h 10 (by decide), h 11 (by decide), h 12 (by decide), h 13 (by decide), h 14 (by decide), h 15 (by decide), h 16 (by decide), h 17 (by decide), h 18 (by decide), h 19 (by decide), h 20 (by decide), h 21 (by decide), h 22 (by decide), h 23 (by decide), h 24 (by decide), h 25 (by decide), h 26 (by decide), h 27 (by decide), h 28 (by decide), h 29 (by decide), h 30 (by decide), h 31 (by decide)⟩

theorem all32 {P : Nat → Prop} (h : ∀ k, k < 32 → P k) :
    P 0 ∧ P 1 ∧ P 2 ∧ P 3 ∧ P 4 ∧ P 5 ∧ P 6 ∧ P 7 ∧ P 8 ∧ P 9 ∧ P 10 ∧ P 11 ∧ P 12 ∧ P 13 ∧ P 14 ∧ P 15 ∧ P 16 ∧ P 17 ∧ P 18 ∧ P 19 ∧ P 20 ∧ P 21 ∧ P 22 ∧ P 23 ∧ P 24 ∧ P 25 ∧ P 26 ∧ P 27 ∧ P 28 ∧ P 29 ∧ P 30 ∧ P 31 :=
  ⟨h 0 (by decide), h 1 (by decide), h 2 (by decide), h 3 (by decide), h 4 (by decide), h 5 (by decide), h 6 (by decide), h 7 (by decide), h 8 (by decide), h 9 (by decide), h 10 (by decide), h 11 (by decide), h 12 (by decide), h 13 (by decide), h 14 (by decide), h 15 (by decide), h 16 (by decide), h 17 (by decide), h 18 (by decide), h 19 (by decide), h 20 (by decide), h 21 (by decide), h 22 (by decide), h 23 (by decide), h 24 (by decide), h 25 (by decide), h 26 (by decide), h 27 (by decide), h 28 (by decide), h 29 (by decide), h 30 (by decide), h 31 (by decide)⟩

theorem ofAll32 {P : Nat → Prop} (h : P 0 ∧ P 1 ∧ P 2 ∧ P 3 ∧ P 4 ∧ P 5 ∧ P 6 ∧ P 7 ∧ P 8 ∧ P 9 ∧ P 10 ∧ P 11 ∧ P 12 ∧ P 13 ∧ P 14 ∧ P 15 ∧ P 16 ∧ P 17 ∧ P 18 ∧ P 19 ∧ P 20 ∧ P 21 ∧ P 22 ∧ P 23 ∧ P 24 ∧ P 25 ∧ P 26 ∧ P 27 ∧ P 28 ∧ P 29 ∧ P 30 ∧ P 31) : ∀ k, k < 32 → P k
  | 0, _ => h.1
  | 1, _ => h.2.1
  | 2, _ => h.2.2.1
  | 3, _ => h.2.2.2.1
  | 4, _ => h.2.2.2.2.1
  | 5, _ => h.2.2.2.2.2.1
  | 6, _ => h.2.2.2.2.2.2.1
  | 7, _ => h.2.2.2.2.2.2.2.1
  | 8, _ => h.2.2.2.2.2.2.2.2.1
  | 9, _ => h.2.2.2.2.2.2.2.2.2.1
  | 10, _ => h.2.2.2.2.2.2.2.2.2.2.1
  | 11, _ => h.2.2.2.2.2.2.2.2.2.2.2.1
  | 12, _ => h.2.2.2.2.2.2.2.2.2.2.2.2.1
  | 13, _ => h.2.2.2.2.2.2.2.2.2.2.2.2.2.1
  | 14, _ => h.2.2.2.2.2.2.2.2.2.2.2.2.2.2.1
  | 15, _ => h.2.2.2.2.2.2.2.2.2.2.2.2.2.2.2.1
  | 16, _ => h.2.2.2.2.2.2.2.2.2.2.2.2.2.2.2.2.1
  | 17, _ => h.2.2.2.2.2.2.2.2.2.2.2.2.2.2.2.2.2.1
  | 18, _ => h.2.2.2.2.2.2.2.2.2.2.2.2.2.2.2.2.2.2.1
  | 19, _ => h.2.2.2.2.2.2.2.2.2.2.2.2.2.2.2.2.2.2.2.1
  | 20, _ => h.2.2.2.2.2.2.2.2.2.2.2.2.2.2.2.2.2.2.2.2.1
  | 21, _ => h.2.2.2.2.2.2.2.2.2.2.2.2.2.2.2.2.2.2.2.2.2.1
  | 22, _ => h.2.2.2.2.2.2.2.2.2.2.2.2.2.2.2.2.2.2.2.2.2.2.1
  | 23, _ => h.2.2.2.2.2.2.2.2.2.2.2.2.2.2.2.2.2.2.2.2.2.2.2.1
  | 24, _ => h.2.2.2.2.2.2.2.2.2.2.2.2.2.2.2.2.2.2.2.2.2.2.2.2.1
  | 25, _ => h.2.2.2.2.2.2.2.2.2.2.2.2.2.2.2.2.2.2.2.2.2.2.2.2.2.1
  | 26, _ => h.2.2.2.2.2.2.2.2.2.2.2.2.2.2.2.2.2.2.2.2.2.2.2.2.2.2.1
  | 27, _ => h.2.2.2.2.2.2.2.2.2.2.2.2.2.2.2.2.2.2.2.2.2.2.2.2.2.2.2.1
  | 28, _ => h.2.2.2.2.2.2.2.2.2.2.2.2.2.2.2.2.2.2.2.2.2.2.2.2.2.2.2.2.1
  | 29, _ => h.2.2.2.2.2.2.2.2.2.2.2.2.2.2.2.2.2.2.2.2.2.2.2.2.2.2.2.2.2.1
  | 30, _ => h.2.2.2.2.2.2.2.2.2.2.2.2.2.2.2.2.2.2.2.2.2.2.2.2.2.2.2.2.2.2.1
  | 31, _ => h.2.2.2.2.2.2.2.2.2.2.2.2.2.2.2.2.2.2.2.2.2.2.2.2.2.2.2.2.2.2.2
  | k + 32, hk => absurd hk (by omega)

theorem rm32 {α : Type} (g : Nat → α) : (List.range 32).map g = [g 0, g 1, g 2, g 3, g 4, g 5, g 6, g 7, g 8, g 9, g 10, g 11, g 12, g 13, g 14, g 15, g 16, g 17, g 18, g 19, g 20, g 21, g 22, g 23, g 24, g 25, g 26, g 27, g 28, g 29, g 30, g 31] := rfl

theorem len32 {α : Type} {l : List α} (h : l.length = 32) : ∃ b0 b1 b2 b3 b4 b5 b6 b7 b8 b9 b10 b11 b12 b13 b14 b15 b16 b17 b18 b19 b20 b21 b22 b23 b24 b25 b26 b27 b28 b29 b30 b31, l = [b0, b1, b2, b3, b4, b5, b6, b7, b8, b9, b10, b11, b12, b13, b14, b15, b16, b17, b18, b19, b20, b21, b22, b23, b24, b25, b26, b27, b28, b29, b30, b31] := by
  match l, h with
  | [b0, b1, b2, b3, b4, b5, b6, b7, b8, b9, b10, b11, b12, b13, b14, b15, b16, b17, b18, b19, b20, b21, b22, b23, b24, b25, b26, b27, b28, b29, b30, b31], _ => exact ⟨b0, b1, b2, b3, b4, b5, b6, b7, b8, b9, b10, b11, b12, b13, b14, b15, b16, b17, b18, b19, b20, b21, b22, b23, b24, b25, b26, b27, b28, b29, b30, b31, rfl⟩

theorem rep1 {b : Nat} {m : BitVec b} {b0 : Bool} (h : ∀ i, m.getLsbD i = [b0].getD i false) :
    m.getLsbD 0 = b0 :=
  h 0

theorem rep2 {b : Nat} {m : BitVec b} {b0 b1 : Bool} (h : ∀ i, m.getLsbD i = [b0, b1].getD i false) :
    m.getLsbD 0 = b0 ∧ m.getLsbD 1 = b1 :=
  ⟨h 0, h 1⟩

theorem rep4 {b : Nat} {m : BitVec b} {b0 b1 b2 b3 : Bool} (h : ∀ i, m.getLsbD i = [b0, b1, b2, b3].getD i false) :
    m.getLsbD 0 = b0 ∧ m.getLsbD 1 = b1 ∧ m.getLsbD 2 = b2 ∧ m.getLsbD 3 = b3 :=
  ⟨h 0, h 1, h 2, h 3⟩

theorem rep8 {b : Nat} {m : BitVec b} {b0 b1 b2 b3 b4 b5 b6 b7 : Bool} (h : ∀ i, m.getLsbD i = [b0, b1, b2, b3, b4, b5, b6, b7].getD i false) :
    m.getLsbD 0 = b0 ∧ m.getLsbD 1 = b1 ∧ m.getLsbD 2 = b2 ∧ m.getLsbD 3 = b3 ∧ m.getLsbD 4 = b4 ∧ m.getLsbD 5 = b5 ∧ m.getLsbD 6 = b6 ∧ m.getLsbD 7 = b7 :=
  ⟨h 0, h 1, h 2, h 3, h 4, h 5, h 6, h 7⟩

theorem rep16 {b : Nat} {m : BitVec b} {b0 b1 b2 b3 b4 b5 b6 b7 b8 b9 b10 b11 b12 b13 b14 b15 : Bool} (h : ∀ i, m.getLsbD i = [b0, b1, b2, b3, b4, b5, b6, b7, b8, b9, b10, b11, b12, b13, b14, b15].getD i false) :
    m.getLsbD 0 = b0 ∧ m.getLsbD 1 = b1 ∧ m.getLsbD 2 = b2 ∧ m.getLsbD 3 = b3 ∧ m.getLsbD 4 = b4 ∧ m.getLsbD 5 = b5 ∧ m.getLsbD 6 = b6 ∧ m.getLsbD 7 = b7 ∧ m.getLsbD 8 = b8 ∧ m.getLsbD 9 = b9 ∧ m.getLsbD 10 = b10 ∧ m.getLsbD 11 = b11 ∧ m.getLsbD 12 = b12 ∧ m.getLsbD 13 = b13 ∧ m.getLsbD 14 = b14 ∧ m.getLsbD 15 = b15 :=
  ⟨h 0, h 1, h 2, h 3, h 4, h 5, h 6, h 7, h 8, h 9, h 10, h 11, h 12, h 13, h 14, h 15⟩

theorem rep32 {b : Nat} {m : BitVec b} {b0 b1 b2 b3 b4 b5 b6 b7 b8 b9 b10 b11 b12 b13 b14 b15 b16 b17 b18 b19 b20 b21 b22 b23 b24 b25 b26 b27 b28 b29 b30 b31 : Bool} (h : ∀ i, m.getLsbD i = [b0, b1, b2, b3, b4, b5, b6, b7, b8, b9, b10, b11, b12, b13, b14, b15, b16, b17, b18, b19, b20, b21, b22, b23, b24, b25, b26, b27, b28, b29, b30, b31].getD i false) :
    m.getLsbD 0 = b0 ∧ m.getLsbD 1 = b1 ∧ m.getLsbD 2 = b2 ∧ m.getLsbD 3 = b3 ∧ m.getLsbD 4 = b4 ∧ m.getLsbD 5 = b5 ∧ m.getLsbD 6 = b6 ∧ m.getLsbD 7 = b7 ∧ m.getLsbD 8 = b8 ∧ m.getLsbD 9 = b9 ∧ m.getLsbD 10 = b10 ∧ m.getLsbD 11 = b11 ∧ m.getLsbD 12 = b12 ∧ m.getLsbD 13 = b13 ∧ m.getLsbD 14 = b14 ∧ m.getLsbD 15 = b15 ∧ m.getLsbD 16 = b16 ∧ m.getLsbD 17 = b17 ∧ m.getLsbD 18 = b18 ∧ m.getLsbD 19 = b19 ∧ m.getLsbD 20 = b20 ∧ m.getLsbD 21 = b21 ∧ m.getLsbD 22 = b22 ∧ m.getLsbD 23 = b23 ∧ m.getLsbD 24 = b24 ∧ m.getLsbD 25 = b25 ∧ m.getLsbD 26 = b26 ∧ m.getLsbD 27 = b27 ∧ m.getLsbD 28 = b28 ∧ m.getLsbD 29 = b29 ∧ m.getLsbD 30 = b30 ∧ m.getLsbD 31 = b31 :=
  ⟨h 0, h 1, h 2, h 3, h 4, h 5, h 6, h 7, h 8, h 9, h 10, h 11, h 12, h 13, h 14, h 15, h 16, h 17, h 18, h 19, h 20, h 21, h 22, h 23, h 24, h 25, h 26, h 27, h 28, h 29, h 30, h 31⟩

theorem bit0 (x : BitVec 32) : (x &&& (1 : BitVec 32) != 0) = x.getLsbD 0 := bitTest x 0 (by decide)
theorem pbit0 {b : Nat} (m : BitVec b) : (promote m &&& (1 : BitVec 32) != 0) = m.getLsbD 0 := pbit m 0 (by decide)
theorem bit1 (x : BitVec 32) : (x &&& (2 : BitVec 32) != 0) = x.getLsbD 1 := bitTest x 1 (by decide)
theorem pbit1 {b : Nat} (m : BitVec b) : (promote m &&& (2 : BitVec 32) != 0) = m.getLsbD 1 := pbit m 1 (by decide)
theorem bit2 (x : BitVec 32) : (x &&& (4 : BitVec 32) != 0) = x.getLsbD 2 := bitTest x 2 (by decide)
theorem pbit2 {b : Nat} (m : BitVec b) : (promote m &&& (4 : BitVec 32) != 0) = m.getLsbD 2 := pbit m 2 (by decide)
theorem bit3 (x : BitVec 32) : (x &&& (8 : BitVec 32) != 0) = x.getLsbD 3 := bitTest x 3 (by decide)
theorem pbit3 {b : Nat} (m : BitVec b) : (promote m &&& (8 : BitVec 32) != 0) = m.getLsbD 3 := pbit m 3 (by decide)
theorem bit4 (x : BitVec 32) : (x &&& (16 : BitVec 32) != 0) = x.getLsbD 4 := bitTest x 4 (by decide)
theorem pbit4 {b : Nat} (m : BitVec b) : (promote m &&& (16 : BitVec 32) != 0) = m.getLsbD 4 := pbit m 4 (by decide)
theorem bit5 (x : BitVec 32) : (x &&& (32 : BitVec 32) != 0) = x.getLsbD 5 := bitTest x 5 (by decide)
theorem pbit5 {b : Nat} (m : BitVec b) : (promote m &&& (32 : BitVec 32) != 0) = m.getLsbD 5 := pbit m 5 (by decide)
theorem bit6 (x : BitVec 32) : (x &&& (64 : BitVec 32) != 0) = x.getLsbD 6 := bitTest x 6 (by decide)
theorem pbit6 {b : Nat} (m : BitVec b) : (promote m &&& (64 : BitVec 32) != 0) = m.getLsbD 6 := pbit m 6 (by decide)
theorem bit7 (x : BitVec 32) : (x &&& (128 : BitVec 32) != 0) = x.getLsbD 7 := bitTest x 7 (by decide)
theorem pbit7 {b : Nat} (m : BitVec b) : (promote m &&& (128 : BitVec 32) != 0) = m.getLsbD 7 := pbit m 7 (by decide)
theorem bit8 (x : BitVec 32) : (x &&& (256 : BitVec 32) != 0) = x.getLsbD 8 := bitTest x 8 (by decide)
theorem pbit8 {b : Nat} (m : BitVec b) : (promote m &&& (256 : BitVec 32) != 0) = m.getLsbD 8 := pbit m 8 (by decide)
theorem bit9 (x : BitVec 32) : (x &&& (512 : BitVec 32) != 0) = x.getLsbD 9 := bitTest x 9 (by decide)
theorem pbit9 {b : Nat} (m : BitVec b) : (promote m &&& (512 : BitVec 32) != 0) = m.getLsbD 9 := pbit m 9 (by decide)
theorem bit10 (x : BitVec 32) : (x &&& (1024 : BitVec 32) != 0) = x.getLsbD 10 := bitTest x 10 (by decide)
theorem pbit10 {b : Nat} (m : BitVec b) : (promote m &&& (1024 : BitVec 32) != 0) = m.getLsbD 10 := pbit m 10 (by decide)
theorem bit11 (x : BitVec 32) : (x &&& (2048 : BitVec 32) != 0) = x.getLsbD 11 := bitTest x 11 (by decide)
theorem pbit11 {b : Nat} (m : BitVec b) : (promote m &&& (2048 : BitVec 32) != 0) = m.getLsbD 11 := pbit m 11 (by decide)
theorem bit12 (x : BitVec 32) : (x &&& (4096 : BitVec 32) != 0) = x.getLsbD 12 := bitTest x 12 (by decide)
theorem pbit12 {b : Nat} (m : BitVec b) : (promote m &&& (4096 : BitVec 32) != 0) = m.getLsbD 12 := pbit m 12 (by decide)
theorem bit13 (x : BitVec 32) : (x &&& (8192 : BitVec 32) != 0) = x.getLsbD 13 := bitTest x 13 (by decide)
theorem pbit13 {b : Nat} (m : BitVec b) : (promote m &&& (8192 : BitVec 32) != 0) = m.getLsbD 13 := pbit m 13 (by decide)
theorem bit14 (x : BitVec 32) : (x &&& (16384 : BitVec 32) != 0) = x.getLsbD 14 := bitTest x 14 (by decide)
theorem pbit14 {b : Nat} (m : BitVec b) : (promote m &&& (16384 : BitVec 32) != 0) = m.getLsbD 14 := pbit m 14 (by decide)
theorem bit15 (x : BitVec 32) : (x &&& (32768 : BitVec 32) != 0) = x.getLsbD 15 := bitTest x 15 (by decide)
theorem pbit15 {b : Nat} (m : BitVec b) : (promote m &&& (32768 : BitVec 32) != 0) = m.getLsbD 15 := pbit m 15 (by decide)
theorem bit16 (x : BitVec 32) : (x &&& (65536 : BitVec 32) != 0) = x.getLsbD 16 := bitTest x 16 (by decide)
theorem pbit16 {b : Nat} (m : BitVec b) : (promote m &&& (65536 : BitVec 32) != 0) = m.getLsbD 16 := pbit m 16 (by decide)
theorem bit17 (x : BitVec 32) : (x &&& (131072 : BitVec 32) != 0) = x.getLsbD 17 := bitTest x 17 (by decide)
theorem pbit17 {b : Nat} (m : BitVec b) : (promote m &&& (131072 : BitVec 32) != 0) = m.getLsbD 17 := pbit m 17 (by decide)
theorem bit18 (x : BitVec 32) : (x &&& (262144 : BitVec 32) != 0) = x.getLsbD 18 := bitTest x 18 (by decide)
theorem pbit18 {b : Nat} (m : BitVec b) : (promote m &&& (262144 : BitVec 32) != 0) = m.getLsbD 18 := pbit m 18 (by decide)
theorem bit19 (x : BitVec 32) : (x &&& (524288 : BitVec 32) != 0) = x.getLsbD 19 := bitTest x 19 (by decide)
theorem pbit19 {b : Nat} (m : BitVec b) : (promote m &&& (524288 : BitVec 32) != 0) = m.getLsbD 19 := pbit m 19 (by decide)
theorem bit20 (x : BitVec 32) : (x &&& (1048576 : BitVec 32) != 0) = x.getLsbD 20 := bitTest x 20 (by decide)
theorem pbit20 {b : Nat} (m : BitVec b) : (promote m &&& (1048576 : BitVec 32) != 0) = m.getLsbD 20 := pbit m 20 (by decide)
theorem bit21 (x : BitVec 32) : (x &&& (2097152 : BitVec 32) != 0) = x.getLsbD 21 := bitTest x 21 (by decide)
theorem pbit21 {b : Nat} (m : BitVec b) : (promote m &&& (2097152 : BitVec 32) != 0) = m.getLsbD 21 := pbit m 21 (by decide)
theorem bit22 (x : BitVec 32) : (x &&& (4194304 : BitVec 32) != 0) = x.getLsbD 22 := bitTest x 22 (by decide)
theorem pbit22 {b : Nat} (m : BitVec b) : (promote m &&& (4194304 : BitVec 32) != 0) = m.getLsbD 22 := pbit m 22 (by decide)
theorem bit23 (x : BitVec 32) : (x &&& (8388608 : BitVec 32) != 0) = x.getLsbD 23 := bitTest x 23 (by decide)
theorem pbit23 {b : Nat} (m : BitVec b) : (promote m &&& (8388608 : BitVec 32) != 0) = m.getLsbD 23 := pbit m 23 (by decide)
theorem bit24 (x : BitVec 32) : (x &&& (16777216 : BitVec 32) != 0) = x.getLsbD 24 := bitTest x 24 (by decide)
theorem pbit24 {b : Nat} (m : BitVec b) : (promote m &&& (16777216 : BitVec 32) != 0) = m.getLsbD 24 := pbit m 24 (by decide)
theorem bit25 (x : BitVec 32) : (x &&& (33554432 : BitVec 32) != 0) = x.getLsbD 25 := bitTest x 25 (by decide)
theorem pbit25 {b : Nat} (m : BitVec b) : (promote m &&& (33554432 : BitVec 32) != 0) = m.getLsbD 25 := pbit m 25 (by decide)
theorem bit26 (x : BitVec 32) : (x &&& (67108864 : BitVec 32) != 0) = x.getLsbD 26 := bitTest x 26 (by decide)
theorem pbit26 {b : Nat} (m : BitVec b) : (promote m &&& (67108864 : BitVec 32) != 0) = m.getLsbD 26 := pbit m 26 (by decide)
theorem bit27 (x : BitVec 32) : (x &&& (134217728 : BitVec 32) != 0) = x.getLsbD 27 := bitTest x 27 (by decide)
theorem pbit27 {b : Nat} (m : BitVec b) : (promote m &&& (134217728 : BitVec 32) != 0) = m.getLsbD 27 := pbit m 27 (by decide)
theorem bit28 (x : BitVec 32) : (x &&& (268435456 : BitVec 32) != 0) = x.getLsbD 28 := bitTest x 28 (by decide)
theorem pbit28 {b : Nat} (m : BitVec b) : (promote m &&& (268435456 : BitVec 32) != 0) = m.getLsbD 28 := pbit m 28 (by decide)
theorem bit29 (x : BitVec 32) : (x &&& (536870912 : BitVec 32) != 0) = x.getLsbD 29 := bitTest x 29 (by decide)
theorem pbit29 {b : Nat} (m : BitVec b) : (promote m &&& (536870912 : BitVec 32) != 0) = m.getLsbD 29 := pbit m 29 (by decide)
theorem bit30 (x : BitVec 32) : (x &&& (1073741824 : BitVec 32) != 0) = x.getLsbD 30 := bitTest x 30 (by decide)
theorem pbit30 {b : Nat} (m : BitVec b) : (promote m &&& (1073741824 : BitVec 32) != 0) = m.getLsbD 30 := pbit m 30 (by decide)
theorem bit31 (x : BitVec 32) : (x &&& (2147483648 : BitVec 32) != 0) = x.getLsbD 31 := bitTest x 31 (by decide)
theorem pbit31 {b : Nat} (m : BitVec b) : (promote m &&& (2147483648 : BitVec 32) != 0) = m.getLsbD 31 := pbit m 31 (by decide)

/-! ### Masks as sums: `(c0 << 0) + (c1 << 1) + …` -/

theorem mask0 (c : Bool) : b2i c <<< 0 = ofBools 32 [c] := by cases c <;> decide
theorem mask1 (c0 c : Bool) : iadd (ofBools 32 [c0]) (b2i c <<< 1) = some (ofBools 32 [c0, c]) := maskStep _ c (by simp)
theorem mask2 (c0 c1 c : Bool) : iadd (ofBools 32 [c0, c1]) (b2i c <<< 2) = some (ofBools 32 [c0, c1, c]) := maskStep _ c (by simp)
theorem mask3 (c0 c1 c2 c : Bool) : iadd (ofBools 32 [c0, c1, c2]) (b2i c <<< 3) = some (ofBools 32 [c0, c1, c2, c]) := maskStep _ c (by simp)
theorem mask4 (c0 c1 c2 c3 c : Bool) : iadd (ofBools 32 [c0, c1, c2, c3]) (b2i c <<< 4) = some (ofBools 32 [c0, c1, c2, c3, c]) := maskStep _ c (by simp)
theorem mask5 (c0 c1 c2 c3 c4 c : Bool) : iadd (ofBools 32 [c0, c1, c2, c3, c4]) (b2i c <<< 5) = some (ofBools 32 [c0, c1, c2, c3, c4, c]) := maskStep _ c (by simp)
theorem mask6 (c0 c1 c2 c3 c4 c5 c : Bool) : iadd (ofBools 32 [c0, c1, c2, c3, c4, c5]) (b2i c <<< 6) = some (ofBools 32 [c0, c1, c2, c3, c4, c5, c]) := maskStep _ c (by simp)
theorem mask7 (c0 c1 c2 c3 c4 c5 c6 c : Bool) : iadd (ofBools 32 [c0, c1, c2, c3, c4, c5, c6]) (b2i c <<< 7) = some (ofBools 32 [c0, c1, c2, c3, c4, c5, c6, c]) := maskStep _ c (by simp)
theorem mask8 (c0 c1 c2 c3 c4 c5 c6 c7 c : Bool) : iadd (ofBools 32 [c0, c1, c2, c3, c4, c5, c6, c7]) (b2i c <<< 8) = some (ofBools 32 [c0, c1, c2, c3, c4, c5, c6, c7, c]) := maskStep _ c (by simp)
theorem mask9 (c0 c1 c2 c3 c4 c5 c6 c7 c8 c : Bool) : iadd (ofBools 32 [c0, c1, c2, c3, c4, c5, c6, c7, c8]) (b2i c <<< 9) = some (ofBools 32 [c0, c1, c2, c3, c4, c5, c6, c7, c8, c]) := maskStep _ c (by simp)
theorem mask10 (c0 c1 c2 c3 c4 c5 c6 c7 c8 c9 c : Bool) : iadd (ofBools 32 [c0, c1, c2, c3, c4, c5, c6, c7, c8, c9]) (b2i c <<< 10) = some (ofBools 32 [c0, c1, c2, c3, c4, c5, c6, c7, c8, c9, c]) := maskStep _ c (by simp)
theorem mask11 (c0 c1 c2 c3 c4 c5 c6 c7 c8 c9 c10 c : Bool) : iadd (ofBools 32 [c0, c1, c2, c3, c4, c5, c6, c7, c8, c9, c10]) (b2i c <<< 11) = some (ofBools 32 [c0, c1, c2, c3, c4, c5, c6, c7, c8, c9, c10, c]) := maskStep _ c (by simp)
theorem mask12 (c0 c1 c2 c3 c4 c5 c6 c7 c8 c9 c10 c11 c : Bool) : iadd (ofBools 32 [c0, c1, c2, c3, c4, c5, c6, c7, c8, c9, c10, c11]) (b2i c <<< 12) = some (ofBools 32 [c0, c1, c2, c3, c4, c5, c6, c7, c8, c9, c10, c11, c]) := maskStep _ c (by simp)
theorem mask13 (c0 c1 c2 c3 c4 c5 c6 c7 c8 c9 c10 c11 c12 c : Bool) : iadd (ofBools 32 [c0, c1, c2, c3, c4, c5, c6, c7, c8, c9, c10, c11, c12]) (b2i c <<< 13) = some (ofBools 32 [c0, c1, c2, c3, c4, c5, c6, c7, c8, c9, c10, c11, c12, c]) := maskStep _ c (by simp)
theorem mask14 (c0 c1 c2 c3 c4 c5 c6 c7 c8 c9 c10 c11 c12 c13 c : Bool) : iadd (ofBools 32 [c0, c1, c2, c3, c4, c5, c6, c7, c8, c9, c10, c11, c12, c13]) (b2i c <<< 14) = some (ofBools 32 [c0, c1, c2, c3, c4, c5, c6, c7, c8, c9, c10, c11, c12, c13, c]) := maskStep _ c (by simp)
theorem mask15 (c0 c1 c2 c3 c4 c5 c6 c7 c8 c9 c10 c11 c12 c13 c14 c : Bool) : iadd (ofBools 32 [c0, c1, c2, c3, c4, c5, c6, c7, c8, c9, c10, c11, c12, c13, c14]) (b2i c <<< 15) = some (ofBools 32 [c0, c1, c2, c3, c4, c5, c6, c7, c8, c9, c10, c11, c12, c13, c14, c]) := maskStep _ c (by simp)
theorem mask16 (c0 c1 c2 c3 c4 c5 c6 c7 c8 c9 c10 c11 c12 c13 c14 c15 c : Bool) : iadd (ofBools 32 [c0, c1, c2, c3, c4, c5, c6, c7, c8, c9, c10, c11, c12, c13, c14, c15]) (b2i c <<< 16) = some (ofBools 32 [c0, c1, c2, c3, c4, c5, c6, c7, c8, c9, c10, c11, c12, c13, c14, c15, c]) := maskStep _ c (by simp)
theorem mask17 (c0 c1 c2 c3 c4 c5 c6 c7 c8 c9 c10 c11 c12 c13 c14 c15 c16 c : Bool) : iadd (ofBools 32 [c0, c1, c2, c3, c4, c5, c6, c7, c8, c9, c10, c11, c12, c13, c14, c15, c16]) (b2i c <<< 17) = some (ofBools 32 [c0, c1, c2, c3, c4, c5, c6, c7, c8, c9, c10, c11, c12, c13, c14, c15, c16, c]) := maskStep _ c (by simp)
theorem mask18 (c0 c1 c2 c3 c4 c5 c6 c7 c8 c9 c10 c11 c12 c13 c14 c15 c16 c17 c : Bool) : iadd (ofBools 32 [c0, c1, c2, c3, c4, c5, c6, c7, c8, c9, c10, c11, c12, c13, c14, c15, c16, c17]) (b2i c <<< 18) = some (ofBools 32 [c0, c1, c2, c3, c4, c5, c6, c7, c8, c9, c10, c11, c12, c13, c14, c15, c16, c17, c]) := maskStep _ c (by simp)
theorem mask19 (c0 c1 c2 c3 c4 c5 c6 c7 c8 c9 c10 c11 c12 c13 c14 c15 c16 c17 c18 c : Bool) : iadd (ofBools 32 [c0, c1, c2, c3, c4, c5, c6, c7, c8, c9, c10, c11, c12, c13, c14, c15, c16, c17, c18]) (b2i c <<< 19) = some (ofBools 32 [c0, c1, c2, c3, c4, c5, c6, c7, c8, c9, c10, c11, c12, c13, c14, c15, c16, c17, c18, c]) := maskStep _ c (by simp)
theorem mask20 (c0 c1 c2 c3 c4 c5 c6 c7 c8 c9 c10 c11 c12 c13 c14 c15 c16 c17 c18 c19 c : Bool) : iadd (ofBools 32 [c0, c1, c2, c3, c4, c5, c6, c7, c8, c9, c10, c11, c12, c13, c14, c15, c16, c17, c18, c19]) (b2i c <<< 20) = some (ofBools 32 [c0, c1, c2, c3, c4, c5, c6, c7, c8, c9, c10, c11, c12, c13, c14, c15, c16, c17, c18, c19, c]) := maskStep _ c (by simp)
theorem mask21 (c0 c1 c2 c3 c4 c5 c6 c7 c8 c9 c10 c11 c12 c13 c14 c15 c16 c17 c18 c19 c20 c : Bool) : iadd (ofBools 32 [c0, c1, c2, c3, c4, c5, c6, c7, c8, c9, c10, c11, c12, c13, c14, c15, c16, c17, c18, c19, c20]) (b2i c <<< 21) = some (ofBools 32 [c0, c1, c2, c3, c4, c5, c6, c7, c8, c9, c10, c11, c12, c13, c14, c15, c16, c17, c18, c19, c20, c]) := maskStep _ c (by simp)
theorem mask22 (c0 c1 c2 c3 c4 c5 c6 c7 c8 c9 c10 c11 c12 c13 c14 c15 c16 c17 c18 c19 c20 c21 c : Bool) : iadd (ofBools 32 [c0, c1, c2, c3, c4, c5, c6, c7, c8, c9, c10, c11, c12, c13, c14, c15, c16, c17, c18, c19, c20, c21]) (b2i c <<< 22) = some (ofBools 32 [c0, c1, c2, c3, c4, c5, c6, c7, c8, c9, c10, c11, c12, c13, c14, c15, c16, c17, c18, c19, c20, c21, c]) := maskStep _ c (by simp)
theorem mask23 (c0 c1 c2 c3 c4 c5 c6 c7 c8 c9 c10 c11 c12 c13 c14 c15 c16 c17 c18 c19 c20 c21 c22 c : Bool) : iadd (ofBools 32 [c0, c1, c2, c3, c4, c5, c6, c7, c8, c9, c10, c11, c12, c13, c14, c15, c16, c17, c18, c19, c20, c21, c22]) (b2i c <<< 23) = some (ofBools 32 [c0, c1, c2, c3, c4, c5, c6, c7, c8, c9, c10, c11, c12, c13, c14, c15, c16, c17, c18, c19, c20, c21, c22, c]) := maskStep _ c (by simp)
theorem mask24 (c0 c1 c2 c3 c4 c5 c6 c7 c8 c9 c10 c11 c12 c13 c14 c15 c16 c17 c18 c19 c20 c21 c22 c23 c : Bool) : iadd (ofBools 32 [c0, c1, c2, c3, c4, c5, c6, c7, c8, c9, c10, c11, c12, c13, c14, c15, c16, c17, c18, c19, c20, c21, c22, c23]) (b2i c <<< 24) = some (ofBools 32 [c0, c1, c2, c3, c4, c5, c6, c7, c8, c9, c10, c11, c12, c13, c14, c15, c16, c17, c18, c19, c20, c21, c22, c23, c]) := maskStep _ c (by simp)
theorem mask25 (c0 c1 c2 c3 c4 c5 c6 c7 c8 c9 c10 c11 c12 c13 c14 c15 c16 c17 c18 c19 c20 c21 c22 c23 c24 c : Bool) : iadd (ofBools 32 [c0, c1, c2, c3, c4, c5, c6, c7, c8, c9, c10, c11, c12, c13, c14, c15, c16, c17, c18, c19, c20, c21, c22, c23, c24]) (b2i c <<< 25) = some (ofBools 32 [c0, c1, c2, c3, c4, c5, c6, c7, c8, c9, c10, c11, c12, c13, c14, c15, c16, c17, c18, c19, c20, c21, c22, c23, c24, c]) := maskStep _ c (by simp)
theorem mask26 (c0 c1 c2 c3 c4 c5 c6 c7 c8 c9 c10 c11 c12 c13 c14 c15 c16 c17 c18 c19 c20 c21 c22 c23 c24 c25 c : Bool) : iadd (ofBools 32 [c0, c1, c2, c3, c4, c5, c6, c7, c8, c9, c10, c11, c12, c13, c14, c15, c16, c17, c18, c19, c20, c21, c22, c23, c24, c25]) (b2i c <<< 26) = some (ofBools 32 [c0, c1, c2, c3, c4, c5, c6, c7, c8, c9, c10, c11, c12, c13, c14, c15, c16, c17, c18, c19, c20, c21, c22, c23, c24, c25, c]) := maskStep _ c (by simp)
theorem mask27 (c0 c1 c2 c3 c4 c5 c6 c7 c8 c9 c10 c11 c12 c13 c14 c15 c16 c17 c18 c19 c20 c21 c22 c23 c24 c25 c26 c : Bool) : iadd (ofBools 32 [c0, c1, c2, c3, c4, c5, c6, c7, c8, c9, c10, c11, c12, c13, c14, c15, c16, c17, c18, c19, c20, c21, c22, c23, c24, c25, c26]) (b2i c <<< 27) = some (ofBools 32 [c0, c1, c2, c3, c4, c5, c6, c7, c8, c9, c10, c11, c12, c13, c14, c15, c16, c17, c18, c19, c20, c21, c22, c23, c24, c25, c26, c]) := maskStep _ c (by simp)
theorem mask28 (c0 c1 c2 c3 c4 c5 c6 c7 c8 c9 c10 c11 c12 c13 c14 c15 c16 c17 c18 c19 c20 c21 c22 c23 c24 c25 c26 c27 c : Bool) : iadd (ofBools 32 [c0, c1, c2, c3, c4, c5, c6, c7, c8, c9, c10, c11, c12, c13, c14, c15, c16, c17, c18, c19, c20, c21, c22, c23, c24, c25, c26, c27]) (b2i c <<< 28) = some (ofBools 32 [c0, c1, c2, c3, c4, c5, c6, c7, c8, c9, c10, c11, c12, c13, c14, c15, c16, c17, c18, c19, c20, c21, c22, c23, c24, c25, c26, c27, c]) := maskStep _ c (by simp)
theorem mask29 (c0 c1 c2 c3 c4 c5 c6 c7 c8 c9 c10 c11 c12 c13 c14 c15 c16 c17 c18 c19 c20 c21 c22 c23 c24 c25 c26 c27 c28 c : Bool) : iadd (ofBools 32 [c0, c1, c2, c3, c4, c5, c6, c7, c8, c9, c10, c11, c12, c13, c14, c15, c16, c17, c18, c19, c20, c21, c22, c23, c24, c25, c26, c27, c28]) (b2i c <<< 29) = some (ofBools 32 [c0, c1, c2, c3, c4, c5, c6, c7, c8, c9, c10, c11, c12, c13, c14, c15, c16, c17, c18, c19, c20, c21, c22, c23, c24, c25, c26, c27, c28, c]) := maskStep _ c (by simp)
theorem mask30 (c0 c1 c2 c3 c4 c5 c6 c7 c8 c9 c10 c11 c12 c13 c14 c15 c16 c17 c18 c19 c20 c21 c22 c23 c24 c25 c26 c27 c28 c29 c : Bool) : iadd (ofBools 32 [c0, c1, c2, c3, c4, c5, c6, c7, c8, c9, c10, c11, c12, c13, c14, c15, c16, c17, c18, c19, c20, c21, c22, c23, c24, c25, c26, c27, c28, c29]) (b2i c <<< 30) = some (ofBools 32 [c0, c1, c2, c3, c4, c5, c6, c7, c8, c9, c10, c11, c12, c13, c14, c15, c16, c17, c18, c19, c20, c21, c22, c23, c24, c25, c26, c27, c28, c29, c]) := maskStep _ c (by simp)
theorem mask31 (c0 c1 c2 c3 c4 c5 c6 c7 c8 c9 c10 c11 c12 c13 c14 c15 c16 c17 c18 c19 c20 c21 c22 c23 c24 c25 c26 c27 c28 c29 c30 c : Bool) : iadd (ofBools 32 [c0, c1, c2, c3, c4, c5, c6, c7, c8, c9, c10, c11, c12, c13, c14, c15, c16, c17, c18, c19, c20, c21, c22, c23, c24, c25, c26, c27, c28, c29, c30]) (b2i c <<< 31) = some (ofBools 32 [c0, c1, c2, c3, c4, c5, c6, c7, c8, c9, c10, c11, c12, c13, c14, c15, c16, c17, c18, c19, c20, c21, c22, c23, c24, c25, c26, c27, c28, c29, c30, c]) := maskStep _ c (by simp)

end
end LFA.SV
