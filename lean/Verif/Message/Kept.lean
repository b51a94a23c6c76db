import Verif.Message.Steps
/-!
What is in the receiver of `Decode` when it returns an error.  The statement forms of Verif/Message/Steps.lean once more, on
a receiver that is kept also in case of an error.
-/
namespace Kafka

/-- Outcome of `Decode`: as `Res`, with what is in the receiver in case of an error too. -/
inductive Kept (τ : Type) where
  | ok (t : τ) (d : Decoder)
  | err (e : DErr) (t : τ) (d : Decoder)
  | panic
deriving DecidableEq, Repr

/-- The outcome without what is in the receiver in case of an error. -/
def Kept.forget {τ : Type} : Kept τ → Res τ
  | .ok t d => .ok t d
  | .err e _ d => .err e d
  | .panic => .panic

/-- A statement of `Decode`, by receiver. -/
abbrev KDec (τ : Type) := τ → Decoder → Kept τ

namespace KDec

/-- `t.F, err = d.M(); if err != nil { return err }`: the assignment is made first, and along with an error the methods of
message/decoder.go return `zero` (message/decoder.go:68-253: `false`, `0`, `""` or `nil`). -/
def field {τ α : Type} (m : Dec α) (zero : α) (set : τ → α → τ) : KDec τ := fun t d =>
  match m d with
  | .ok x d' => .ok (set t x) d'
  | .err e d' => .err e (set t zero) d'
  | .panic => .panic

/-- `for i := 0; i < n; i++ { var item T; if err := (&item).Decode(d, version); err != nil { return err }; a[i] = item }`
in an array of `n` that `make` has set to `zero`: what becomes of the array. -/
def items {α : Type} (dec : Decoder → Kept α) (zero : α) : Nat → Decoder → Kept (List α)
  | 0, d => .ok [] d
  | n + 1, d =>
    match dec d with
    | .panic => .panic
    | .err e _ d' => .err e (zero :: List.replicate n zero) d'
    | .ok x d' =>
      match items dec zero n d' with
      | .panic => .panic
      | .err e xs d'' => .err e (x :: xs) d''
      | .ok xs d'' => .ok (x :: xs) d''

/-- message/messages.gen.go:79-88 and the like: the array is assigned before its items are decoded. -/
def fieldStructs {τ α : Type} (dec : Decoder → Kept α) (zero : α) (set : τ → Slice α → τ) : KDec τ := fun t d =>
  match Dec.arrayLength d with
  | .panic => .panic
  | .err e d' => .err e t d'
  | .ok n d' =>
    if n ≥ 0 then
      match items dec zero n.toNat d' with
      | .panic => .panic
      | .err e l d'' => .err e (set t (some l)) d''
      | .ok l d'' => .ok (set t (some l)) d''
    else .ok t d'

/-- `f; g` -/
def andThen {τ : Type} (f g : KDec τ) : KDec τ := fun t d =>
  match f t d with
  | .ok t' d' => g t' d'
  | .err e t' d' => .err e t' d'
  | .panic => .panic

@[inherit_doc] infixl:55 " ;|> " => KDec.andThen

/-- `if c { f }` -/
def onlyIf {τ : Type} (c : Prop) [Decidable c] (f : KDec τ) : KDec τ := fun t d => if c then f t d else .ok t d

/-- no statement -/
def nop {τ : Type} : KDec τ := fun t d => .ok t d

end KDec

/-! ### Specification: what is left of a message of which only the first `n` bytes are there -/

namespace Cut

/-- Where the fields end, for the bytes of the fields in order: `ends 0 fields i` is the number of bytes up to the end of
field `i`. -/
def ends (start : Nat) : List (List Byte) → Nat → Nat
  | [], _ => start
  | p :: _, 0 => start + p.length
  | p :: ps, i + 1 => ends (start + p.length) ps i

/-- A field that ends after `stop` bytes: there if those are. -/
def field {α : Type} (n stop : Nat) (x zero : α) : α := if stop ≤ n then x else zero

/-- The items of an array, `n` bytes of which are there: as many as are there whole, and `zero` for the others. -/
def items {α : Type} (w : α → List Byte) (seen : α → α) (zero : α) : Nat → List α → List α
  | _, [] => []
  | n, x :: xs => if (w x).length ≤ n then seen x :: items w seen zero (n - (w x).length) xs else zero :: xs.map fun _ => zero

/-- An array of structures that begins after `start` bytes: nil if its length is not there. -/
def array {α : Type} (n start : Nat) (w : α → List Byte) (seen : α → α) (zero : α) (s : Slice α) : Slice α :=
  if start + 4 ≤ n then some (items w seen zero (n - start - 4) s.elems) else none

/-- A field of a version. -/
def gate {α : Type} (c : Prop) [Decidable c] (x zero : α) : α := if c then x else zero

/-- `r` is the beginning of `y` up to an array of which only `j` items are there, and zeros; `before y` is what comes before
the array. -/
def begun {τ α : Type} (zero : α) (get : τ → Slice α) (set : τ → Slice α → τ) (before : τ → τ) (r y : τ) : Prop :=
  ∃ l j, get y = some l ∧ j < l.length ∧ r = set (before y) (some (l.take j ++ List.replicate (l.length - j) zero))

end Cut

/-- `Decode` with its receiver kept, and what is to be in it when `n` bytes of `t` are there (`cut`), or where `y` would be if
there were more bytes (`Part`). -/
structure KeptMsg (M : MsgType) where
  decode : Int16 → M.T → Decoder → Kept M.T
  cut : Int16 → Nat → M.T → M.T
  Part : M.T → M.T → Prop

end Kafka
