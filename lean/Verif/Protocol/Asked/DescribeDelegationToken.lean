import Verif.Protocol.Conform.DescribeDelegationToken
/-!
Generated by tools/gen_protocol.py: the DescribeDelegationToken request is read as the protocol says.
-/
namespace Kafka.Msg

open Protocol

/-- What `DescribeDelegationTokenOwner41` holds after reading the value `x` into `t0`. -/
def DescribeDelegationTokenOwner41.of (_v : Int16) (x : Val) (_t0 : DescribeDelegationTokenOwner41) : DescribeDelegationTokenOwner41 :=
  { PrincipalType := (x.get "PrincipalType").toStr,
    PrincipalName := (x.get "PrincipalName").toStr }

theorem DescribeDelegationTokenOwner41.decodes {v : Int16} (hv : 0 ≤ v) (x : Val) (h : Protocol.DescribeDelegationTokenOwner.Valid false v x) (t0 : DescribeDelegationTokenOwner41) :
    Reads (DescribeDelegationTokenOwner41.decode v t0) (Protocol.DescribeDelegationTokenOwner.wire false v x) (DescribeDelegationTokenOwner41.of v x t0) :=
  Reads.congr (((Step.field (set := fun (t : DescribeDelegationTokenOwner41) x => { t with PrincipalType := x }) (read_string (Fields.Valid.head (h) hv)))
      |>.andThen (Step.field (set := fun (t : DescribeDelegationTokenOwner41) x => { t with PrincipalName := x }) (read_string (Fields.Valid.head (Fields.Valid.tail h) hv))) : Step _ _ _) t0)
    (Writes.eq (fs := Protocol.DescribeDelegationTokenOwner) (v := v) (x := x) <| Writes.all hv rfl <| Writes.all hv rfl <| Writes.done).symm rfl

theorem DescribeDelegationTokenOwner41.parses {v : Int16} (hv : 0 ≤ v) (t0 : DescribeDelegationTokenOwner41) :
    Parses (DescribeDelegationTokenOwner41.decode v t0) ((Ty.struct Protocol.DescribeDelegationTokenOwner).parse v) (fun x => DescribeDelegationTokenOwner41.of v x t0) :=
  FParses.parses (fs := Protocol.DescribeDelegationTokenOwner)
    (FParses.field hv (set := fun (t : DescribeDelegationTokenOwner41) x => { t with PrincipalType := x }) par_string <|
    FParses.field hv (set := fun (t : DescribeDelegationTokenOwner41) x => { t with PrincipalName := x }) par_string <|
    FParses.done)
    (by simp only [DescribeDelegationTokenOwner41.decode, Dec.andThen_nop]) (Fields.distinct_nodup _ (by decide +kernel)) (fun _ _ => rfl) t0

theorem DescribeDelegationTokenOwner41.shown {v : Int16} (hv : 0 ≤ v) (x : Val) (h : Protocol.DescribeDelegationTokenOwner.Typed v x) :
    Protocol.DescribeDelegationTokenOwner.shows v x (DescribeDelegationTokenOwner41.val (DescribeDelegationTokenOwner41.of v x {})) = true :=
  Shows.all hv (show_string (Fields.Typed.head (h) hv)) <|
    Shows.all hv (show_string (Fields.Typed.head (Fields.Typed.tail h) hv)) <|
    rfl

/-- What `DescribeDelegationTokenRequest` holds after reading the value `x` into `t0`. -/
def DescribeDelegationTokenRequest.of (v : Int16) (x : Val) (t0 : DescribeDelegationTokenRequest) : DescribeDelegationTokenRequest :=
  { Owners := (x.get "Owners").toSliceOr (fun y => DescribeDelegationTokenOwner41.of v y {}) t0.Owners }

theorem DescribeDelegationTokenRequest.decodes {v : Int16} (hv : 0 ≤ v) (x : Val) (h : Protocol.DescribeDelegationTokenRequest.Valid false v x) (t0 : DescribeDelegationTokenRequest) :
    Reads (DescribeDelegationTokenRequest.decode v t0) (Protocol.DescribeDelegationTokenRequest.wire false v x) (DescribeDelegationTokenRequest.of v x t0) :=
  Reads.congr (((Step.readStructs (get := fun (t : DescribeDelegationTokenRequest) => t.Owners) (set := fun (t : DescribeDelegationTokenRequest) x => { t with Owners := x }) (fun y hy => DescribeDelegationTokenOwner41.decodes hv y hy {}) (Fields.Valid.head (h) hv)) : Step _ _ _) t0)
    (Writes.eq (fs := Protocol.DescribeDelegationTokenRequest) (v := v) (x := x) <| Writes.all hv rfl <| Writes.done).symm rfl

theorem DescribeDelegationTokenRequest.parses {v : Int16} (hv : 0 ≤ v) (t0 : DescribeDelegationTokenRequest) :
    Parses (DescribeDelegationTokenRequest.decode v t0) ((Ty.struct Protocol.DescribeDelegationTokenRequest).parse v) (fun x => DescribeDelegationTokenRequest.of v x t0) :=
  FParses.parses (fs := Protocol.DescribeDelegationTokenRequest)
    (FParses.structs hv (get := fun (t : DescribeDelegationTokenRequest) => t.Owners) (set := fun (t : DescribeDelegationTokenRequest) x => { t with Owners := x }) (DescribeDelegationTokenOwner41.parses hv {}) <|
    FParses.done)
    (by simp only [DescribeDelegationTokenRequest.decode, Dec.andThen_nop]) (Fields.distinct_nodup _ (by decide +kernel)) (fun _ _ => rfl) t0

theorem DescribeDelegationTokenRequest.shown {v : Int16} (hv : 0 ≤ v) (x : Val) (h : Protocol.DescribeDelegationTokenRequest.Typed v x) :
    Protocol.DescribeDelegationTokenRequest.shows v x (DescribeDelegationTokenRequest.val (DescribeDelegationTokenRequest.of v x {})) = true :=
  Shows.all hv (show_structs (f := DescribeDelegationTokenOwner41.val) (g := fun y => DescribeDelegationTokenOwner41.of v y {}) (fun y hy => DescribeDelegationTokenOwner41.shown hv y hy) (Fields.Typed.head (h) hv)) <|
    rfl

end Kafka.Msg
