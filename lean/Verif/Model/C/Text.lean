import Verif.Model.C.Mem
import Mathlib.Algebra.Order.Round
import Mathlib.Data.Int.Log
import Mathlib.Data.Real.Archimedean

/-!
# Text tables: reading and writing

src/common.c:105-456 and 817-914.  A file is the list of its characters (ASCII, without NUL and `0xff`); opening,
seeking and closing succeed.  Numbers are exact: `atof` returns the number that is written (the C function rounds it to
the nearest double), and `printf` rounds a number to the requested digits.  Infinities, NaN, negative zero and
hexadecimal numbers are not covered.
-/

namespace Coffe
open Classical

/-- A string or the contents of a file. -/
abbrev Text := List Char

/-- `COFFE_MAX_STRLEN`, src/common.h. -/
def COFFE_MAX_STRLEN : ℕ := 256

/-- `COFFE_MAX_ALLOCABLE`, src/common.h. -/
def COFFE_MAX_ALLOCABLE : ℕ := 1024

/-! ## The C library -/

/-- What `fgets(…, m + 1, file)` takes from the file: at most `m` characters, up to and including a newline. -/
def fgets_line : ℕ → Text → Text × Text
  | 0, s => ([], s)
  | _, [] => ([], [])
  | m + 1, c :: s =>
    if c = '\n' then ([c], s)
    else ((c :: (fgets_line m s).1), (fgets_line m s).2)

/-- `fgets(temp_string, COFFE_MAX_STRLEN, data)`: at the end of the file `temp_string` keeps its contents. -/
def fgets (temp_string : Option Text) (data : Text) : Option Text × Text :=
  if data = [] then (temp_string, []) else (some (fgets_line (COFFE_MAX_STRLEN - 1) data).1,
    (fgets_line (COFFE_MAX_STRLEN - 1) data).2)

/-- The characters in `",\t: "`. -/
def isDelim (c : Char) : Bool := c = ',' || c = '\t' || c = ':' || c = ' '

/-- `strtok(s, ",\t: ")`: the first token, if any, and what the next call with `NULL` continues with. -/
def strtok (s : Text) : Option Text × Text :=
  if s.dropWhile isDelim = [] then (none, [])
  else (some ((s.dropWhile isDelim).takeWhile fun c => !isDelim c),
    ((s.dropWhile isDelim).dropWhile fun c => !isDelim c).tail)

/-- `isspace`. -/
def isSpace (c : Char) : Bool := c = ' ' || c = '\t' || c = '\n' || c = '\r' || c = '\x0b' || c = '\x0c'

/-- The decimal digits at the beginning of a string, and the rest. -/
def digits (s : Text) : Text × Text := (s.takeWhile Char.isDigit, s.dropWhile Char.isDigit)

/-- An optional sign, and the rest. -/
def sign_of (s : Text) : ℤ × Text :=
  match s with
  | '-' :: s => (-1, s)
  | '+' :: s => (1, s)
  | s => (1, s)

/-- An optional exponent: zero unless at least one digit follows. -/
def exponent_of (s : Text) : ℤ :=
  match s with
  | c :: s => if (c = 'e' ∨ c = 'E') ∧ (digits (sign_of s).2).1 ≠ [] then
      (sign_of s).1 * (Nat.ofDigitChars 10 (digits (sign_of s).2).1 0 : ℤ) else 0
  | [] => 0

/-- The fraction after an optional decimal point, and the rest. -/
def fraction_of (s : Text) : Text × Text :=
  match s with
  | '.' :: s => digits s
  | s => ([], s)

/-- `atof`: blanks, a sign, digits with an optional decimal point, an optional exponent; the rest is ignored. -/
noncomputable def atof (s : Text) : ℝ :=
  let t := sign_of (s.dropWhile isSpace)
  let a := digits t.2
  let b := fraction_of a.2
  if a.1 = [] ∧ b.1 = [] then 0
  else t.1 * (Nat.ofDigitChars 10 (a.1 ++ b.1) 0 : ℝ) * 10 ^ (exponent_of b.2 - b.1.length)

/-- `printf` rounds to a nearest integer; the direction of ties is left open. -/
structure Rounding where
  rnd : ℝ → ℤ
  near : ∀ y, |(rnd y : ℝ) - y| ≤ 1 / 2

/-- The decimal exponent and the digits that `printf("%.pe")` shows for `|x|`, `x ≠ 0`. -/
noncomputable def sci (R : Rounding) (p : ℕ) (x : ℝ) : ℤ × ℕ :=
  let e := Int.log 10 |x|
  let m := (R.rnd (|x| * 10 ^ ((p : ℤ) - e))).toNat
  if m = 10 ^ (p + 1) then (e + 1, 10 ^ p) else (e, m)

/-- The exponent: a sign and at least two digits. -/
def fmt_exponent (e : ℤ) : Text :=
  (if e < 0 then '-' else '+') :: (if e.natAbs < 10 then '0' :: Nat.toDigits 10 e.natAbs else Nat.toDigits 10 e.natAbs)

/-- The digits of a number with a decimal point after the first one. -/
def fmt_mantissa (m : ℕ) : Text :=
  match Nat.toDigits 10 m with
  | d :: ds => d :: '.' :: ds
  | [] => []

/-- `printf("%.pe", x)`, `p > 0`. -/
noncomputable def fmt (R : Rounding) (p : ℕ) (x : ℝ) : Text :=
  if x = 0 then '0' :: '.' :: List.replicate p '0' ++ 'e' :: fmt_exponent 0
  else (if x < 0 then ['-'] else []) ++ fmt_mantissa (sci R p x).2 ++ 'e' :: fmt_exponent (sci R p x).1

/-! ## Readers -/

/-- The first loop of the readers, src/common.c:124-126, 190-192, 838-840: the number of newlines. -/
def count_lines (data : Text) : ℕ := data.count '\n'

/-- `temp_string[0]` of the line read last: reading it before any line was read is undefined. -/
def is_comment (temp_string : Option Text) : CRes Bool :=
  match temp_string with
  | none => .error .uninit
  | some s => .ok (s.head? = some '#')

/-- The second loop of the readers, src/common.c:134-138, 200-204, 850-853. -/
noncomputable def count_rows (n : ℕ) (data : Text) : CRes ℕ := do
  let s ← cfor (upTo 0 n) (fun _ (s : Option Text × Text × ℕ) => do
    let r := fgets s.1 s.2.1
    let c ← is_comment r.1
    pure (r.1, r.2, if c then s.2.2 else s.2.2 + 1)) (none, data, 0)
  pure s.2.2

/-- `read_1col`, src/common.c:110-165. -/
noncomputable def read_1col (data : Text) : CRes (Buf ℕ ℝ × ℕ) := do
  let n := count_lines data
  let len ← count_rows n data
  let s ← cfor (upTo 0 n) (fun _ (s : Option Text × Text × Buf ℕ ℝ × ℕ) => do
    let r := fgets s.1 s.2.1
    let c ← is_comment r.1
    if c then pure (r.1, r.2, s.2.2)
    else do
      let v ← s.2.2.1.store s.2.2.2 (atof (r.1.getD []))
      pure (r.1, r.2, v, s.2.2.2 + 1)) (none, data, cmalloc len, 0)
  pure (s.2.2.1, len)

/-- `atof(temp_token)`: a missing token is dereferenced. -/
noncomputable def atof_token (t : Option Text) : CRes ℝ :=
  match t with
  | none => .error .null
  | some s => .ok (atof s)

/-- `read_2col`, src/common.c:173-234.  Both columns are one buffer here. -/
noncomputable def read_2col (data : Text) : CRes (Buf ℕ (ℝ × ℝ) × ℕ) := do
  let n := count_lines data
  let len ← count_rows n data
  let s ← cfor (upTo 0 n) (fun _ (s : Option Text × Text × Buf ℕ (ℝ × ℝ) × ℕ) => do
    let r := fgets s.1 s.2.1
    let c ← is_comment r.1
    if c then pure (r.1, r.2, s.2.2)
    else do
      let t := strtok (r.1.getD [])
      let a ← atof_token t.1
      let b ← atof_token (strtok t.2).1
      let v ← s.2.2.1.store s.2.2.2 (a, b)
      pure (r.1, r.2, v, s.2.2.2 + 1)) (none, data, cmalloc len, 0)
  pure (s.2.2.1, len)

/-- One iteration of the loop over the columns of `coffe_read_ncol`, src/common.c:880-885: a missing token leaves the cell
unwritten. -/
noncomputable def read_cell (row j : ℕ) (b : Buf (ℕ × ℕ) ℝ × Option Text × Text) :
    CRes (Buf (ℕ × ℕ) ℝ × Option Text × Text) := do
  let v ← match b.2.1 with
    | none => pure b.1
    | some t => b.1.store (j, row) (atof t)
  pure (v, strtok b.2.2)

/-- `coffe_read_ncol`, src/common.c:821-914. -/
noncomputable def coffe_read_ncol (N : ℕ) (data : Text) : CRes (Buf (ℕ × ℕ) ℝ × ℕ) := do
  let n := count_lines data
  let len ← count_rows n data
  let s ← cfor (upTo 0 n) (fun _ (s : Option Text × Text × Buf (ℕ × ℕ) ℝ × ℕ) => do
    let r := fgets s.1 s.2.1
    let c ← is_comment r.1
    if c then pure (r.1, r.2, s.2.2)
    else do
      let v ← cfor (upTo 0 N) (read_cell s.2.2.2) (s.2.2.1, strtok (r.1.getD []))
      pure (r.1, r.2, v.1, s.2.2.2 + 1)) (none, data, Buf.new (fun i => i.1 < N ∧ i.2 < len), 0)
  pure (s.2.2.1, len)

/-! ## Writers -/

/-- `if (header != NULL) fprintf(data, "%s", header)`. -/
def header_text (header : Option Text) : Text := header.getD []

/-- `write_1col`, src/common.c:242-268. -/
noncomputable def write_1col (R : Rounding) (values : Buf ℕ ℝ) (len : ℕ) (header : Option Text) : CRes Text :=
  cfor (upTo 0 len) (fun i data => do
    let v ← values.load i
    pure (data ++ fmt R 15 v ++ ['\n'])) (header_text header)

/-- `write_2col`, src/common.c:277-305. -/
noncomputable def write_2col (R : Rounding) (values1 values2 : Buf ℕ ℝ) (len : ℕ) (header : Option Text) (sep : Text) :
    CRes Text :=
  cfor (upTo 0 len) (fun i data => do
    let v1 ← values1.load i
    let v2 ← values2.load i
    pure (data ++ fmt R 15 v1 ++ sep ++ fmt R 15 v2 ++ ['\n'])) (header_text header)

/-- `p[i]` for a pointer that may be `NULL`. -/
noncomputable def load_ptr (p : Option (Buf ℕ ℝ)) (i : ℕ) : CRes ℝ :=
  match p with
  | none => .error .null
  | some b => b.load i

/-- The two nested loops of `write_ncol` and `write_ncol_null` for one row. -/
noncomputable def write_row (R : Rounding) (cols : Buf ℕ (Option (Buf ℕ ℝ))) (ncolumns i : ℕ) (sep : Text) (data : Text) :
    CRes Text :=
  cfor (upTo 0 ncolumns) (fun j data => do
    let p ← cols.load j
    let v ← load_ptr p i
    pure (if j < ncolumns - 1 then data ++ fmt R 10 v ++ sep else data ++ fmt R 10 v ++ sep ++ ['\n'])) data

/-- `write_ncol`, src/common.c:316-360, for a call with `ncolumns` pointers.  The row index is used to look for `NULL`
among the pointers. -/
noncomputable def write_ncol (R : Rounding) (cols : List (Option (Buf ℕ ℝ))) (len : ℕ) (header : Option Text)
    (sep : Text) : CRes Text := do
  let all_values : Buf ℕ (Option (Buf ℕ ℝ)) := Buf.of (· < cols.length) fun j => cols.getD j none
  cfor (upTo 0 len) (fun i data => do
    let p ← all_values.load i
    if p.isSome then write_row R all_values cols.length i sep data else pure data) (header_text header)

/-- The loop that collects the arguments of `write_ncol_null`, src/common.c:382-386, from the second argument on:
reading past the last argument is undefined, as is a store past `COFFE_MAX_ALLOCABLE` pointers. -/
noncomputable def collect_columns : Option (Buf ℕ ℝ) → List (Option (Buf ℕ ℝ)) → Buf ℕ (Option (Buf ℕ ℝ)) → ℕ →
    CRes (Buf ℕ (Option (Buf ℕ ℝ)) × ℕ)
  | none, _, all_values, counter => .ok (all_values, counter)
  | some _, [], _, _ => .error .oob
  | some _, a :: args, all_values, counter => do
    let v ← all_values.store (counter + 1) a
    collect_columns a args v (counter + 1)

/-- `write_ncol_null`, src/common.c:368-413: nothing is written (`none`) if the first column is `NULL`. -/
noncomputable def write_ncol_null (R : Rounding) (args : List (Option (Buf ℕ ℝ))) (len : ℕ) (header : Option Text)
    (sep : Text) : CRes (Option Text) :=
  match args with
  | [] => .error .oob
  | a :: args => do
    let v ← (cmalloc COFFE_MAX_ALLOCABLE : Buf ℕ (Option (Buf ℕ ℝ))).store 0 a
    let c ← collect_columns a args v 0
    if c.2 > 0 then do
      let data ← cfor (upTo 0 len) (fun i data => write_row R c.1 c.2 i sep data) (header_text header)
      pure (some data)
    else pure none

/-- `write_matrix`, src/common.c:421-456 (`%10e` shows six decimals, padded to ten characters, which is never needed).
The last column is replaced by the end of the line. -/
noncomputable def write_matrix (R : Rounding) (values : Buf (ℕ × ℕ) ℝ) (len1 len2 : ℕ) (header : Option Text)
    (sep : Text) : CRes Text :=
  cfor (upTo 0 len1) (fun i data =>
    cfor (upTo 0 len2) (fun j data =>
      if j ≠ len2 - 1 then do
        let v ← values.load (i, j)
        pure (data ++ fmt R 6 v ++ sep)
      else pure (data ++ ['\n'])) data) (match header with
        | some h => h ++ ['\n']
        | none => [])

end Coffe
