import Verif.Conn.Frames
/-!
What a connection prints to standard output (`fmt.Println`, gen.conn.go:99 and 135; nothing else in the
repository prints).  Verif.Conn.Model leaves printing out, since no step depends on it; here an execution is
run along with its output.
-/
namespace Kafka.Conn

open Kafka

/-- A line printed. -/
inductive Line where
  /-- gen.conn.go:99, the error of `raw.Read` -/
  | readErr
  /-- gen.conn.go:135, the error of decoding the header of a frame -/
  | headerErr (e : DErr)
deriving DecidableEq, Repr

/-- gen.conn.go:97-101 and 130-137: what is printed in step `a` of the machine. -/
def prints (a : Act) (s : State) : List Line :=
  match a with
  | .readErr _ => [.readErr]
  | .message =>
    match s.mpc with
    | .inBody size =>
      match Msg.ResponseHeader.decode 1 {} { raw := s.ring.rdst, length := size, offset := 0 } with
      | .err e _ => if size > s.buf.length then [] else [.headerErr e]
      | _ => []
    | _ => []
  | _ => []

/-- An execution that ends in a state, and its output. -/
inductive Prints (P : Params) (ok : State → Act → Prop) : State → List Line → Prop where
  | init : Prints P ok (init P) []
  | step {s s' : State} {out : List Line} (a : Act) : Prints P ok s out → ok s a → step P a s = some s' →
      Prints P ok s' (out ++ prints a s)

theorem Prints.reach {P : Params} {ok : State → Act → Prop} {s : State} {out : List Line} (h : Prints P ok s out) :
    Reach P ok s := by
  induction h with
  | init => exact .init
  | step a _ hok hs ih => exact .step a ih hok hs

theorem Reach.prints {P : Params} {ok : State → Act → Prop} {s : State} (h : Reach P ok s) : ∃ out, Prints P ok s out := by
  induction h with
  | init => exact ⟨_, .init⟩
  | step a _ hok hs ih => exact ⟨_, .step a ih.choose_spec hok hs⟩

end Kafka.Conn
