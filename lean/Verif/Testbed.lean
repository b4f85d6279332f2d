import Verif.Base
import Mathlib.Data.Nat.Digits.Defs

/-
  The testbed for benchmarks: testbed/cpu_benchmark.hpp, testbed/benchmark.hpp and testbed/evaluate.hpp (not on Windows).

  Strings are lists of characters, `'\x00'` is the null character. Lengths of strings are below 2^64 (`std::string::max_size`).
-/
set_option linter.unusedVariables false
namespace LFA
namespace Testbed

/-- std::string. -/
abbrev Str := List Char

/-- The null character. -/
def nul : Char := Char.ofNat 0

/-- How a function may fail: undefined behaviour, `std::runtime_error`, `std::out_of_range`. -/
inductive Fail where
  | ub (u : UB)
  | runtime (msg : String)
  | range
deriving DecidableEq

/-! ### std::string and std::vector -/

/-- `string[i]`: the character behind the last one is null. -/
def charAt (s : Str) (i : Nat) : Except Fail Char :=
  if h : i < s.length then .ok s[i] else if i = s.length then .ok nul else .error (.ub .oob)

/-- `tokens[i]`. -/
def elemAt (l : List Str) (i : Nat) : Except Fail Str :=
  match l[i]? with
  | some s => .ok s
  | none => .error (.ub .oob)

/-- `std::string(s, pos, n)`. -/
def substr (s : Str) (pos n : Nat) : Except Fail Str := if pos > s.length then .error .range else .ok ((s.drop pos).take n)

/-- `s.find(t) != std::string::npos`. -/
def find (s t : Str) : Bool := s.tails.any fun u => t.isPrefixOf u

/-- Conversion of a `char*`: up to the first null character. -/
def cstr (s : Str) : Str := s.takeWhile (· ≠ nul)

/-- `std::getline(stream, item, d)`: the item and the rest of the stream; `none` if the stream is at its end. -/
def getline (d : Char) : Str → Option (Str × Str)
  | [] => none
  | c :: s => some ((c :: s).takeWhile (· ≠ d), ((c :: s).dropWhile (· ≠ d)).drop 1)

theorem getline_lt {d : Char} {s item rest : Str} (h : getline d s = some (item, rest)) : rest.length < s.length := by
  cases s with
  | nil => cases h
  | cons c s =>
    simp only [getline, Option.some.injEq, Prod.mk.injEq] at h
    rw [← h.2, List.length_drop, List.length_cons]
    have := (List.dropWhile_suffix (l := c :: s) (· ≠ d)).length_le
    rw [List.length_cons] at this
    omega

/-! ### cpu_benchmark.hpp -/

/-- The first loop of `trim` (cpu_benchmark.hpp:119-122). The character is read before the index is compared. -/
def trimStart (s : Str) (start : Nat) : Except Fail Nat :=
  match charAt s start with
  | .error e => .error e
  | .ok c => if h : c = ' ' ∧ start < s.length then trimStart s (start + 1) else .ok start
termination_by s.length - start
decreasing_by omega

/-- The second loop of `trim` (cpu_benchmark.hpp:124-127). -/
def trimEnd (s : Str) : Nat → Except Fail Nat
  | 0 => (charAt s 0).map fun _ => 0
  | n + 1 =>
    match charAt s (n + 1) with
    | .error e => .error e
    | .ok c => if c = ' ' ∧ n + 1 > 1 then trimEnd s n else .ok (n + 1)

/-- `trim` (cpu_benchmark.hpp:113-133). The difference of unsigned numbers wraps around. -/
def trim (s : Str) : Except Fail Str :=
  if s.length = 0 then .ok s
  else
    match trimStart s 0, trimEnd s (s.length - 1) with
    | .ok start, .ok e =>
      match charAt s e with
      | .error f => .error f
      | .ok c =>
        let e := if c ≠ ' ' ∧ e < s.length then e + 1 else e
        substr s start ((e + 2 ^ 64 - start) % 2 ^ 64)
    | .error f, _ => .error f
    | _, .error f => .error f

/-- `tokenize` (cpu_benchmark.hpp:135-147). -/
def tokenize (line : Str) (d : Char) : Except Fail (List Str) :=
  match h : getline d line with
  | none => .ok []
  | some (item, rest) =>
    match trim item with
    | .error e => .error e
    | .ok t => (tokenize rest d).map fun ts => t :: ts
termination_by line.length
decreasing_by exact getline_lt h

/-- `join` (cpu_benchmark.hpp:149-161). -/
def join (delimiter : Str) : List Str → Str
  | [] => []
  | t :: ts => t ++ ts.flatMap fun t => delimiter ++ t

/-- `file.getline(&buffer[0], n)`: the line and the rest; `none` if there is no character left or the line does not fit. -/
def readLine (n : Nat) : Str → Option (Str × Str)
  | [] => none
  | c :: s =>
    let line := (c :: s).takeWhile (· ≠ '\n')
    if line.length < n then some (line, ((c :: s).dropWhile (· ≠ '\n')).drop 1) else none

theorem readLine_lt {n : Nat} {s line rest : Str} (h : readLine n s = some (line, rest)) : rest.length < s.length := by
  cases s with
  | nil => cases h
  | cons c s =>
    simp only [readLine] at h
    split at h
    · simp only [Option.some.injEq, Prod.mk.injEq] at h
      rw [← h.2, List.length_drop, List.length_cons]
      have := (List.dropWhile_suffix (l := c :: s) (· ≠ '\n')).length_le
      rw [List.length_cons] at this
      omega
    · cases h

/-- What is done with a line of /proc/cpuinfo (cpu_benchmark.hpp:58-73): `none` to go on with the next line. -/
def procLine (line : Str) : Except Fail (Option Str) := do
  let tokens ← tokenize (cstr line) ':'
  let t0 ← elemAt tokens 0
  let fields ← tokenize t0 '\t'
  if fields = ["cpu".toList] then
    let t1 ← elemAt tokens 1
    return some t1
  if fields = ["model name".toList] then
    let t1 ← elemAt tokens 1
    let tokens ← tokenize t1 ' '
    let buf := join " ".toList tokens
    if h : 0 < buf.length then
      return some (if buf[buf.length - 1] = nul then buf.take (buf.length - 1) else buf)
    else throw (.ub .oob)
  return none

/-- The loop of `parse_proc_cpu` (cpu_benchmark.hpp:51-77), `s` is what is left of the file. -/
def parseProc (s : Str) : Except Fail Str :=
  match h : readLine 4096 s with
  | none => .error (.runtime "could not parse /proc/cpuinfo")
  | some (line, rest) =>
    match procLine line with
    | .error e => .error e
    | .ok (some r) => .ok r
    | .ok none => parseProc rest
termination_by s.length
decreasing_by exact readLine_lt h

/-- The line at the beginning of a stream, with the newline. -/
def firstLine : Str → Str
  | [] => []
  | c :: s => if c = '\n' then [c] else c :: firstLine s

/-- `fgets(buffer, n, file)`: the characters read and the rest of the stream. -/
def fgets (n : Nat) : Str → Option (Str × Str)
  | [] => none
  | c :: s =>
    let l := (firstLine (c :: s)).take (n - 1)
    some (l, (c :: s).drop l.length)

/-- What `fgets` makes of the buffer: a null character is appended, characters behind it remain. -/
def intoBuffer (buf l : Str) : Str := l ++ nul :: buf.drop (l.length + 1)

/-- The loop over the tokens (cpu_benchmark.hpp:96-103). The iterator is incremented in the body, too. -/
def scan : List Str → Str × Str → Except Fail (Str × Str)
  | [], st => .ok st
  | t :: ts, (ty, nm) =>
    if find t "CPU type".toList then
      match ts with
      | [] => .error (.ub .oob)
      | t' :: ts' =>
        if find t' "CPU name".toList then
          match ts' with
          | [] => .error (.ub .oob)
          | t'' :: ts'' => scan ts'' (t', t'')
        else scan ts' (t', nm)
    else if find t "CPU name".toList then
      match ts with
      | [] => .error (.ub .oob)
      | t' :: ts' => scan ts' (ty, t')
    else scan ts (ty, nm)

theorem fgets_lt {n : Nat} {s l rest : Str} (hn : 2 ≤ n) (h : fgets n s = some (l, rest)) : rest.length < s.length := by
  cases s with
  | nil => cases h
  | cons c s =>
    simp only [fgets, Option.some.injEq, Prod.mk.injEq] at h
    obtain ⟨rfl, rfl⟩ := h
    have : 0 < (firstLine (c :: s)).length := by unfold firstLine; split <;> simp
    rw [List.length_drop, List.length_take, List.length_cons]
    omega

/-- The loop over the lines (cpu_benchmark.hpp:94-104), `buf` is the buffer. -/
def likwidLoop (buf s : Str) (st : Str × Str) : Except Fail (Str × Str) :=
  match h : fgets 100000 s with
  | none => .ok st
  | some (l, rest) =>
    match tokenize (intoBuffer buf l) ',' with
    | .error e => .error e
    | .ok tokens =>
      match scan tokens st with
      | .error e => .error e
      | .ok st => likwidLoop (intoBuffer buf l) rest st
termination_by s.length
decreasing_by exact fgets_lt (by decide) h

/-- `parse_likwid_topology` (cpu_benchmark.hpp:79-111). `none` if `popen` fails. If there is no such program then the output is empty. -/
def parseLikwid (output : Option Str) : Except Fail Str :=
  match output with
  | none => .error (.runtime "failed to get output from likwid-topology")
  | some s =>
    match likwidLoop (List.replicate 100000 ' ') s ([], []) with
    | .error e => .error e
    | .ok (ty, nm) =>
      if ty = [] ∨ nm = [] then .error (.runtime "failed to parse likwid-topology") else .ok (ty ++ ", ".toList ++ nm)

/-- `device` (cpu_benchmark.hpp:35-48): output of likwid-topology, content of /proc/cpuinfo (empty if it cannot be opened). -/
def device (likwid : Option Str) (cpuinfo : Str) : Except Fail Str :=
  match parseLikwid likwid with
  | .ok r => .ok r
  | .error (.runtime _) =>
    match parseProc cpuinfo with
    | .ok r => .ok r
    | .error (.runtime _) => .ok "unknown CPU".toList
    | .error e => .error e
  | .error e => .error e

/-! ### evaluate.hpp -/

/-- `stream << std::setw(n) << s`, flag `left`, fill character blank. -/
def setw (n : Nat) (s : Str) : Str := s ++ List.replicate (n - s.length) ' '

/-- `stream << i` for an int. -/
def showInt (i : Int) : Str :=
  (if i < 0 then ['-'] else []) ++ (if i = 0 then ['0'] else ((Nat.digits 10 i.natAbs).reverse.map fun d => Char.ofNat (48 + d)))

/-- What `evaluate` needs to know about a benchmark (benchmark.hpp:34-45). The number which `performance` returns is represented by its
    textual representation. -/
structure Bench where
  (order family species unit device : Str)
  performance : List Int → Str

/-- `print_header` (evaluate.hpp:50-53). -/
def header : Str :=
  "#rev              ; date                 ; host                            ; device                                          ; order   ; family                          ; species ; dimensions              ; perf        ; unit\n".toList

/-- `pretty_dim` (evaluate.hpp:114-119). -/
def prettyDim : List Int → Except Fail Str
  | [] => .error (.ub .oob)
  | d :: ds => .ok ("(".toList ++ showInt d ++ (ds.flatMap fun d => ", ".toList ++ showInt d) ++ ")".toList)

/-- The row of a benchmark (evaluate.hpp:123-132). -/
def row (revision now hostname : Str) (b : Bench) (perf dims : Str) : Str :=
  setw 18 revision ++ "; ".toList ++ now ++ " ; ".toList ++ setw 32 hostname ++ "; ".toList ++ setw 48 b.device ++ "; ".toList ++
  setw 8 b.order ++ "; ".toList ++ setw 32 b.family ++ "; ".toList ++ setw 8 b.species ++ "; ".toList ++ setw 24 dims ++ "; ".toList ++
  setw 12 perf ++ "; ".toList ++ setw 8 b.unit ++ "\n".toList

/-- `operator()` (evaluate.hpp:55-134): the text written, and the parameters for which `performance` has been called. `now` is the formatted
    time, `host` the buffer after `gethostname`. -/
def evaluate (name revision now host : Str) (b : Bench) (dim : List Int) (output : Bool) : Except Fail (Str × List (List Int)) :=
  if find b.family name = false then .ok ([], [])
  else
    match prettyDim dim with
    | .error e => .error e
    | .ok dims => .ok (if output then row revision now (cstr host) b (b.performance dim) dims else [], [dim])

end Testbed
end LFA
