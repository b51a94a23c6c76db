import Verif.Gen.ApiVersion
import Verif.Gen.Model.ApiVersions
/-!
Model of version negotiation, gen.broker.go:1326-1589.

`matchVersion` contains a loop that need not terminate, so both functions take a bound
`fuel` on the number of iterations of each such loop: `none` means the code is still
looping after that many.  The Go function returns `r` iff some bound gives `some r`
(`Negotiates`), and never returns iff every bound gives `none`.
-/
namespace Kafka

open Msg (ApiVersionsResponseKey18)

/-- The error `unable to negotiate version for api key, k`. -/
structure NegotiateErr where
  key : Int16
deriving DecidableEq, Repr

/-- gen.broker.go:1583-1587: the loop of `matchVersion` with loop variable `version` (int16,
wrapping).  The inner `version := apiKey.MaxVersion` shadows the loop variable, so the
test is on `MaxVersion` in every iteration. -/
def matchLoop (apiKey : ApiVersionsResponseKey18) (minVersion maxVersion : Int16) :
    Nat → Int16 → Option (Except NegotiateErr Int16)
  | 0, _ => none
  | fuel + 1, version =>
    if version ≥ apiKey.MinVersion then
      if apiKey.MaxVersion ≥ minVersion ∧ apiKey.MaxVersion ≤ maxVersion then
        some (.ok apiKey.MaxVersion)
      else matchLoop apiKey minVersion maxVersion fuel (version - 1)
    else some (.error ⟨apiKey.ApiKey⟩)

/-- gen.broker.go:1582-1589 `matchVersion` -/
def matchVersion (fuel : Nat) (apiKey : ApiVersionsResponseKey18) (minVersion maxVersion : Int16) :
    Option (Except NegotiateErr Int16) :=
  matchLoop apiKey minVersion maxVersion fuel apiKey.MaxVersion

/-- gen.broker.go:1334-1576: the loop over the advertised keys; a key without `case` is
skipped. -/
def negotiateLoop (fuel : Nat) :
    List ApiVersionsResponseKey18 → ApiVersion → Option (Except NegotiateErr ApiVersion)
  | [], av => some (.ok av)
  | apiKey :: apiKeys, av =>
    match negotiateCases.find? (fun c => c.key == apiKey.ApiKey) with
    | none => negotiateLoop fuel apiKeys av
    | some c =>
      match matchVersion fuel apiKey c.lo c.hi with
      | none => none
      | some (.error e) => some (.error e)
      | some (.ok v) => negotiateLoop fuel apiKeys (c.assign av v)

/-- gen.broker.go:1329-1579 `negotiateApiVersions` (on an error the returned table is the
zero table, which no caller uses) -/
def negotiateApiVersions (fuel : Nat) (apiKeys : Slice ApiVersionsResponseKey18) :
    Option (Except NegotiateErr ApiVersion) :=
  negotiateLoop fuel apiKeys.elems {}

/-- `negotiateApiVersions(apiKeys)` returns `r`. -/
def Negotiates (apiKeys : Slice ApiVersionsResponseKey18) (r : Except NegotiateErr ApiVersion) :
    Prop := ∃ fuel, negotiateApiVersions fuel apiKeys = some r

/-- `negotiateApiVersions(apiKeys)` never returns. -/
def NegotiateHangs (apiKeys : Slice ApiVersionsResponseKey18) : Prop :=
  ∀ fuel, negotiateApiVersions fuel apiKeys = none

end Kafka
