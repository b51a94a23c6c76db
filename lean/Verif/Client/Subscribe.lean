import Verif.Client.Model
import Verif.RecordBatch.Model
/-!
Model of `Broker.Subscribe`.
-/
namespace Kafka.Client

/-- gen.broker.go:1267-1268 `Subscription` -/
structure Subscription where

/-- gen.broker.go:1270-1272 `Subscribe`; `none` is the nil pointer.  The handler (1265) may look at a message and fail. -/
def Handle.subscribe (_b : Handle) (_topics : GoString) (_handler : Record.Message → Option Err) : M (Option Subscription) :=
  M.ok none

end Kafka.Client
