import Verif.Message.StepLemmas
import Verif.Gen.Spec.DescribeConfigs
/-!
Generated by tools/gen_messages.py: laws of the DescribeConfigs messages.
-/
namespace Kafka.Msg

theorem DescribeConfigsResource32.emits (version : Int16) (t : DescribeConfigsResource32) :
    Emits (DescribeConfigsResource32.encode version t) (DescribeConfigsResource32.wire version t) :=
  (emits_int8 t.ResourceType)
    |>.andThen (emits_string t.ResourceName)
    |>.andThen (emits_stringArray t.ConfigurationKeys)
theorem DescribeConfigsResource32.sized (version : Int16) (t : DescribeConfigsResource32) :
    Sized (DescribeConfigsResource32.size version t) (DescribeConfigsResource32.wire version t) :=
  Grows.sized ((Grows.add (sized_int8 t.ResourceType))
    |>.andThen (Grows.add (sized_string t.ResourceName))
    |>.andThen (Grows.add (sized_stringArray t.ConfigurationKeys)))
theorem DescribeConfigsResource32.reads (version : Int16) (t : DescribeConfigsResource32) (h : t.Fits version) (t0 : DescribeConfigsResource32) :
    Reads (DescribeConfigsResource32.decode version t0) (DescribeConfigsResource32.wire version t) (t.seen version t0) :=
  ((Step.field (set := fun (t : DescribeConfigsResource32) x => { t with ResourceType := x }) (reads_int8 t.ResourceType))
    |>.andThen (Step.field (set := fun (t : DescribeConfigsResource32) x => { t with ResourceName := x }) (reads_string h.ResourceName))
    |>.andThen (Step.field (set := fun (t : DescribeConfigsResource32) x => { t with ConfigurationKeys := x }) (reads_stringArray h.ConfigurationKeys)) : Step _ _ _) t0
theorem DescribeConfigsResource32.tame (version : Int16) (t0 : DescribeConfigsResource32) : Tame (DescribeConfigsResource32.decode version t0) :=
  ((TameStep.field tame_int8)
    |>.andThen (TameStep.field tame_string)
    |>.andThen (TameStep.field tame_stringArray) : TameStep _) t0
theorem DescribeConfigsResource32.calm (version : Int16) (t0 : DescribeConfigsResource32) :
    Calm (DescribeConfigsResource32.decode version t0) (fun _ => True) :=
  ((CalmStep.field tame_int8 calm_int8)
    |>.andThen (CalmStep.field tame_string calm_string)
    |>.andThen (CalmStep.field tame_stringArray calm_stringArray) : CalmStep _).2 t0
theorem DescribeConfigsResource32.canon (version : Int16) (t : DescribeConfigsResource32) (_h : t.Canon version) :
    t.seen version {} = t :=
  DescribeConfigsResource32.ext rfl rfl rfl
theorem DescribeConfigsResource32.again (version : Int16) (t t0 : DescribeConfigsResource32) :
    DescribeConfigsResource32.wire version (t.seen version t0) = DescribeConfigsResource32.wire version t :=
  app_congr (app_congr (rfl) (rfl)) (rfl)
theorem DescribeConfigsResource32.lawful : Lawful DescribeConfigsResource32.type DescribeConfigsResource32.layout :=
  ⟨DescribeConfigsResource32.emits, DescribeConfigsResource32.sized, DescribeConfigsResource32.reads, DescribeConfigsResource32.tame, DescribeConfigsResource32.calm, DescribeConfigsResource32.canon, DescribeConfigsResource32.again⟩

theorem DescribeConfigsRequest.emits (version : Int16) (t : DescribeConfigsRequest) :
    Emits (DescribeConfigsRequest.encode version t) (DescribeConfigsRequest.wire version t) :=
  (emits_structs (DescribeConfigsResource32.emits version) t.Resources)
    |>.andThen (Emits.onlyIf (emits_bool t.IncludeSynoyms))
theorem DescribeConfigsRequest.sized (version : Int16) (t : DescribeConfigsRequest) :
    Sized (DescribeConfigsRequest.size version t) (DescribeConfigsRequest.wire version t) :=
  Grows.sized ((Grows.structs (DescribeConfigsResource32.sized version) t.Resources)
    |>.andThen (Grows.onlyIf (Grows.add (sized_bool t.IncludeSynoyms))))
theorem DescribeConfigsRequest.reads (version : Int16) (t : DescribeConfigsRequest) (h : t.Fits version) (t0 : DescribeConfigsRequest) :
    Reads (DescribeConfigsRequest.decode version t0) (DescribeConfigsRequest.wire version t) (t.seen version t0) :=
  ((Step.structs (get := fun (t : DescribeConfigsRequest) => t.Resources) (set := fun (t : DescribeConfigsRequest) x => { t with Resources := x }) (fun x hx => DescribeConfigsResource32.reads version x hx {}) h.Resources)
    |>.andThen (Step.optField (c := version ≥ 1) (set := fun (t : DescribeConfigsRequest) x => { t with IncludeSynoyms := x }) (·.IncludeSynoyms) (fun _ => rfl) fun _ => reads_bool t.IncludeSynoyms) : Step _ _ _) t0
theorem DescribeConfigsRequest.tame (version : Int16) (t0 : DescribeConfigsRequest) : Tame (DescribeConfigsRequest.decode version t0) :=
  ((TameStep.structs (DescribeConfigsResource32.tame version {}))
    |>.andThen (TameStep.onlyIf (TameStep.field tame_bool)) : TameStep _) t0
theorem DescribeConfigsRequest.calm (version : Int16) (t0 : DescribeConfigsRequest) :
    Calm (DescribeConfigsRequest.decode version t0) (fun _ => True) :=
  ((CalmStep.structs (DescribeConfigsResource32.tame version {}) (DescribeConfigsResource32.calm version {}))
    |>.andThen (CalmStep.onlyIf (CalmStep.field tame_bool calm_bool)) : CalmStep _).2 t0
theorem DescribeConfigsRequest.canon (version : Int16) (t : DescribeConfigsRequest) (h : t.Canon version) :
    t.seen version {} = t :=
  DescribeConfigsRequest.ext (canon_structs (DescribeConfigsResource32.canon version) h.Resources) (canon_opt h.IncludeSynoyms)
theorem DescribeConfigsRequest.again (version : Int16) (t t0 : DescribeConfigsRequest) :
    DescribeConfigsRequest.wire version (t.seen version t0) = DescribeConfigsRequest.wire version t :=
  app_congr (again_structs (fun x => DescribeConfigsResource32.again version x {}) t.Resources) (again_opt Wire.bool t.IncludeSynoyms t0.IncludeSynoyms)
theorem DescribeConfigsRequest.lawful : Lawful DescribeConfigsRequest.type DescribeConfigsRequest.layout :=
  ⟨DescribeConfigsRequest.emits, DescribeConfigsRequest.sized, DescribeConfigsRequest.reads, DescribeConfigsRequest.tame, DescribeConfigsRequest.calm, DescribeConfigsRequest.canon, DescribeConfigsRequest.again⟩

theorem DescribeConfigsSynonym32.emits (version : Int16) (t : DescribeConfigsSynonym32) :
    Emits (DescribeConfigsSynonym32.encode version t) (DescribeConfigsSynonym32.wire version t) :=
  (Emits.onlyIf (emits_string t.Name))
    |>.andThen (Emits.onlyIf (emits_string t.Value))
    |>.andThen (Emits.onlyIf (emits_int8 t.Source))
theorem DescribeConfigsSynonym32.sized (version : Int16) (t : DescribeConfigsSynonym32) :
    Sized (DescribeConfigsSynonym32.size version t) (DescribeConfigsSynonym32.wire version t) :=
  Grows.sized ((Grows.onlyIf (Grows.add (sized_string t.Name)))
    |>.andThen (Grows.onlyIf (Grows.add (sized_string t.Value)))
    |>.andThen (Grows.onlyIf (Grows.add (sized_int8 t.Source))))
theorem DescribeConfigsSynonym32.reads (version : Int16) (t : DescribeConfigsSynonym32) (h : t.Fits version) (t0 : DescribeConfigsSynonym32) :
    Reads (DescribeConfigsSynonym32.decode version t0) (DescribeConfigsSynonym32.wire version t) (t.seen version t0) :=
  ((Step.optField (c := version ≥ 1) (set := fun (t : DescribeConfigsSynonym32) x => { t with Name := x }) (·.Name) (fun _ => rfl) fun hc => reads_string (h.Name hc))
    |>.andThen (Step.optField (c := version ≥ 1) (set := fun (t : DescribeConfigsSynonym32) x => { t with Value := x }) (·.Value) (fun _ => rfl) fun hc => reads_string (h.Value hc))
    |>.andThen (Step.optField (c := version ≥ 1) (set := fun (t : DescribeConfigsSynonym32) x => { t with Source := x }) (·.Source) (fun _ => rfl) fun _ => reads_int8 t.Source) : Step _ _ _) t0
theorem DescribeConfigsSynonym32.tame (version : Int16) (t0 : DescribeConfigsSynonym32) : Tame (DescribeConfigsSynonym32.decode version t0) :=
  ((TameStep.onlyIf (TameStep.field tame_string))
    |>.andThen (TameStep.onlyIf (TameStep.field tame_string))
    |>.andThen (TameStep.onlyIf (TameStep.field tame_int8)) : TameStep _) t0
theorem DescribeConfigsSynonym32.calm (version : Int16) (t0 : DescribeConfigsSynonym32) :
    Calm (DescribeConfigsSynonym32.decode version t0) (fun _ => True) :=
  ((CalmStep.onlyIf (CalmStep.field tame_string calm_string))
    |>.andThen (CalmStep.onlyIf (CalmStep.field tame_string calm_string))
    |>.andThen (CalmStep.onlyIf (CalmStep.field tame_int8 calm_int8)) : CalmStep _).2 t0
theorem DescribeConfigsSynonym32.canon (version : Int16) (t : DescribeConfigsSynonym32) (h : t.Canon version) :
    t.seen version {} = t :=
  DescribeConfigsSynonym32.ext (canon_opt h.Name) (canon_opt h.Value) (canon_opt h.Source)
theorem DescribeConfigsSynonym32.again (version : Int16) (t t0 : DescribeConfigsSynonym32) :
    DescribeConfigsSynonym32.wire version (t.seen version t0) = DescribeConfigsSynonym32.wire version t :=
  app_congr (app_congr (again_opt Wire.string t.Name t0.Name) (again_opt Wire.string t.Value t0.Value)) (again_opt Wire.int8 t.Source t0.Source)
theorem DescribeConfigsSynonym32.lawful : Lawful DescribeConfigsSynonym32.type DescribeConfigsSynonym32.layout :=
  ⟨DescribeConfigsSynonym32.emits, DescribeConfigsSynonym32.sized, DescribeConfigsSynonym32.reads, DescribeConfigsSynonym32.tame, DescribeConfigsSynonym32.calm, DescribeConfigsSynonym32.canon, DescribeConfigsSynonym32.again⟩

theorem DescribeConfigsResourceResult32.emits (version : Int16) (t : DescribeConfigsResourceResult32) :
    Emits (DescribeConfigsResourceResult32.encode version t) (DescribeConfigsResourceResult32.wire version t) :=
  (emits_string t.Name)
    |>.andThen (emits_string t.Value)
    |>.andThen (emits_bool t.ReadOnly)
    |>.andThen (Emits.onlyIf (emits_bool t.IsDefault))
    |>.andThen (Emits.onlyIf (emits_int8 t.ConfigSource))
    |>.andThen (emits_bool t.IsSensitive)
    |>.andThen (Emits.onlyIf (emits_structs (DescribeConfigsSynonym32.emits version) t.Synonyms))
theorem DescribeConfigsResourceResult32.sized (version : Int16) (t : DescribeConfigsResourceResult32) :
    Sized (DescribeConfigsResourceResult32.size version t) (DescribeConfigsResourceResult32.wire version t) :=
  Grows.sized ((Grows.add (sized_string t.Name))
    |>.andThen (Grows.add (sized_string t.Value))
    |>.andThen (Grows.add (sized_bool t.ReadOnly))
    |>.andThen (Grows.onlyIf (Grows.add (sized_bool t.IsDefault)))
    |>.andThen (Grows.onlyIf (Grows.add (sized_int8 t.ConfigSource)))
    |>.andThen (Grows.add (sized_bool t.IsSensitive))
    |>.andThen (Grows.onlyIf (Grows.structs (DescribeConfigsSynonym32.sized version) t.Synonyms)))
theorem DescribeConfigsResourceResult32.reads (version : Int16) (t : DescribeConfigsResourceResult32) (h : t.Fits version) (t0 : DescribeConfigsResourceResult32) :
    Reads (DescribeConfigsResourceResult32.decode version t0) (DescribeConfigsResourceResult32.wire version t) (t.seen version t0) :=
  ((Step.field (set := fun (t : DescribeConfigsResourceResult32) x => { t with Name := x }) (reads_string h.Name))
    |>.andThen (Step.field (set := fun (t : DescribeConfigsResourceResult32) x => { t with Value := x }) (reads_string h.Value))
    |>.andThen (Step.field (set := fun (t : DescribeConfigsResourceResult32) x => { t with ReadOnly := x }) (reads_bool t.ReadOnly))
    |>.andThen (Step.optField (c := version ≥ 0 ∧ version ≤ 0) (set := fun (t : DescribeConfigsResourceResult32) x => { t with IsDefault := x }) (·.IsDefault) (fun _ => rfl) fun _ => reads_bool t.IsDefault)
    |>.andThen (Step.optField (c := version ≥ 1) (set := fun (t : DescribeConfigsResourceResult32) x => { t with ConfigSource := x }) (·.ConfigSource) (fun _ => rfl) fun _ => reads_int8 t.ConfigSource)
    |>.andThen (Step.field (set := fun (t : DescribeConfigsResourceResult32) x => { t with IsSensitive := x }) (reads_bool t.IsSensitive))
    |>.andThen (Step.optStructs (c := version ≥ 1) (get := fun (t : DescribeConfigsResourceResult32) => t.Synonyms) (set := fun (t : DescribeConfigsResourceResult32) x => { t with Synonyms := x }) (fun _ => rfl) (fun x hx => DescribeConfigsSynonym32.reads version x hx {}) h.Synonyms) : Step _ _ _) t0
theorem DescribeConfigsResourceResult32.tame (version : Int16) (t0 : DescribeConfigsResourceResult32) : Tame (DescribeConfigsResourceResult32.decode version t0) :=
  ((TameStep.field tame_string)
    |>.andThen (TameStep.field tame_string)
    |>.andThen (TameStep.field tame_bool)
    |>.andThen (TameStep.onlyIf (TameStep.field tame_bool))
    |>.andThen (TameStep.onlyIf (TameStep.field tame_int8))
    |>.andThen (TameStep.field tame_bool)
    |>.andThen (TameStep.onlyIf (TameStep.structs (DescribeConfigsSynonym32.tame version {}))) : TameStep _) t0
theorem DescribeConfigsResourceResult32.calm (version : Int16) (t0 : DescribeConfigsResourceResult32) :
    Calm (DescribeConfigsResourceResult32.decode version t0) (fun _ => True) :=
  ((CalmStep.field tame_string calm_string)
    |>.andThen (CalmStep.field tame_string calm_string)
    |>.andThen (CalmStep.field tame_bool calm_bool)
    |>.andThen (CalmStep.onlyIf (CalmStep.field tame_bool calm_bool))
    |>.andThen (CalmStep.onlyIf (CalmStep.field tame_int8 calm_int8))
    |>.andThen (CalmStep.field tame_bool calm_bool)
    |>.andThen (CalmStep.onlyIf (CalmStep.structs (DescribeConfigsSynonym32.tame version {}) (DescribeConfigsSynonym32.calm version {}))) : CalmStep _).2 t0
theorem DescribeConfigsResourceResult32.canon (version : Int16) (t : DescribeConfigsResourceResult32) (h : t.Canon version) :
    t.seen version {} = t :=
  DescribeConfigsResourceResult32.ext rfl rfl rfl (canon_opt h.IsDefault) (canon_opt h.ConfigSource) rfl (canon_optStructs (DescribeConfigsSynonym32.canon version) h.Synonyms.1 h.Synonyms.2)
theorem DescribeConfigsResourceResult32.again (version : Int16) (t t0 : DescribeConfigsResourceResult32) :
    DescribeConfigsResourceResult32.wire version (t.seen version t0) = DescribeConfigsResourceResult32.wire version t :=
  app_congr (app_congr (app_congr (app_congr (app_congr (app_congr (rfl) (rfl)) (rfl)) (again_opt Wire.bool t.IsDefault t0.IsDefault)) (again_opt Wire.int8 t.ConfigSource t0.ConfigSource)) (rfl)) (again_optStructs (fun x => DescribeConfigsSynonym32.again version x {}) t.Synonyms t0.Synonyms)
theorem DescribeConfigsResourceResult32.lawful : Lawful DescribeConfigsResourceResult32.type DescribeConfigsResourceResult32.layout :=
  ⟨DescribeConfigsResourceResult32.emits, DescribeConfigsResourceResult32.sized, DescribeConfigsResourceResult32.reads, DescribeConfigsResourceResult32.tame, DescribeConfigsResourceResult32.calm, DescribeConfigsResourceResult32.canon, DescribeConfigsResourceResult32.again⟩

theorem DescribeConfigsResult32.emits (version : Int16) (t : DescribeConfigsResult32) :
    Emits (DescribeConfigsResult32.encode version t) (DescribeConfigsResult32.wire version t) :=
  (emits_int16 t.ErrorCode)
    |>.andThen (emits_string t.ErrorMessage)
    |>.andThen (emits_int8 t.ResourceType)
    |>.andThen (emits_string t.ResourceName)
    |>.andThen (emits_structs (DescribeConfigsResourceResult32.emits version) t.Configs)
theorem DescribeConfigsResult32.sized (version : Int16) (t : DescribeConfigsResult32) :
    Sized (DescribeConfigsResult32.size version t) (DescribeConfigsResult32.wire version t) :=
  Grows.sized ((Grows.add (sized_int16 t.ErrorCode))
    |>.andThen (Grows.add (sized_string t.ErrorMessage))
    |>.andThen (Grows.add (sized_int8 t.ResourceType))
    |>.andThen (Grows.add (sized_string t.ResourceName))
    |>.andThen (Grows.structs (DescribeConfigsResourceResult32.sized version) t.Configs))
theorem DescribeConfigsResult32.reads (version : Int16) (t : DescribeConfigsResult32) (h : t.Fits version) (t0 : DescribeConfigsResult32) :
    Reads (DescribeConfigsResult32.decode version t0) (DescribeConfigsResult32.wire version t) (t.seen version t0) :=
  ((Step.field (set := fun (t : DescribeConfigsResult32) x => { t with ErrorCode := x }) (reads_int16 t.ErrorCode))
    |>.andThen (Step.field (set := fun (t : DescribeConfigsResult32) x => { t with ErrorMessage := x }) (reads_string h.ErrorMessage))
    |>.andThen (Step.field (set := fun (t : DescribeConfigsResult32) x => { t with ResourceType := x }) (reads_int8 t.ResourceType))
    |>.andThen (Step.field (set := fun (t : DescribeConfigsResult32) x => { t with ResourceName := x }) (reads_string h.ResourceName))
    |>.andThen (Step.structs (get := fun (t : DescribeConfigsResult32) => t.Configs) (set := fun (t : DescribeConfigsResult32) x => { t with Configs := x }) (fun x hx => DescribeConfigsResourceResult32.reads version x hx {}) h.Configs) : Step _ _ _) t0
theorem DescribeConfigsResult32.tame (version : Int16) (t0 : DescribeConfigsResult32) : Tame (DescribeConfigsResult32.decode version t0) :=
  ((TameStep.field tame_int16)
    |>.andThen (TameStep.field tame_string)
    |>.andThen (TameStep.field tame_int8)
    |>.andThen (TameStep.field tame_string)
    |>.andThen (TameStep.structs (DescribeConfigsResourceResult32.tame version {})) : TameStep _) t0
theorem DescribeConfigsResult32.calm (version : Int16) (t0 : DescribeConfigsResult32) :
    Calm (DescribeConfigsResult32.decode version t0) (fun _ => True) :=
  ((CalmStep.field tame_int16 calm_int16)
    |>.andThen (CalmStep.field tame_string calm_string)
    |>.andThen (CalmStep.field tame_int8 calm_int8)
    |>.andThen (CalmStep.field tame_string calm_string)
    |>.andThen (CalmStep.structs (DescribeConfigsResourceResult32.tame version {}) (DescribeConfigsResourceResult32.calm version {})) : CalmStep _).2 t0
theorem DescribeConfigsResult32.canon (version : Int16) (t : DescribeConfigsResult32) (h : t.Canon version) :
    t.seen version {} = t :=
  DescribeConfigsResult32.ext rfl rfl rfl rfl (canon_structs (DescribeConfigsResourceResult32.canon version) h.Configs)
theorem DescribeConfigsResult32.again (version : Int16) (t t0 : DescribeConfigsResult32) :
    DescribeConfigsResult32.wire version (t.seen version t0) = DescribeConfigsResult32.wire version t :=
  app_congr (app_congr (app_congr (app_congr (rfl) (rfl)) (rfl)) (rfl)) (again_structs (fun x => DescribeConfigsResourceResult32.again version x {}) t.Configs)
theorem DescribeConfigsResult32.lawful : Lawful DescribeConfigsResult32.type DescribeConfigsResult32.layout :=
  ⟨DescribeConfigsResult32.emits, DescribeConfigsResult32.sized, DescribeConfigsResult32.reads, DescribeConfigsResult32.tame, DescribeConfigsResult32.calm, DescribeConfigsResult32.canon, DescribeConfigsResult32.again⟩

theorem DescribeConfigsResponse.emits (version : Int16) (t : DescribeConfigsResponse) :
    Emits (DescribeConfigsResponse.encode version t) (DescribeConfigsResponse.wire version t) :=
  (emits_int32 t.ThrottleTimeMs)
    |>.andThen (emits_structs (DescribeConfigsResult32.emits version) t.Results)
theorem DescribeConfigsResponse.sized (version : Int16) (t : DescribeConfigsResponse) :
    Sized (DescribeConfigsResponse.size version t) (DescribeConfigsResponse.wire version t) :=
  Grows.sized ((Grows.add (sized_int32 t.ThrottleTimeMs))
    |>.andThen (Grows.structs (DescribeConfigsResult32.sized version) t.Results))
theorem DescribeConfigsResponse.reads (version : Int16) (t : DescribeConfigsResponse) (h : t.Fits version) (t0 : DescribeConfigsResponse) :
    Reads (DescribeConfigsResponse.decode version t0) (DescribeConfigsResponse.wire version t) (t.seen version t0) :=
  ((Step.field (set := fun (t : DescribeConfigsResponse) x => { t with ThrottleTimeMs := x }) (reads_int32 t.ThrottleTimeMs))
    |>.andThen (Step.structs (get := fun (t : DescribeConfigsResponse) => t.Results) (set := fun (t : DescribeConfigsResponse) x => { t with Results := x }) (fun x hx => DescribeConfigsResult32.reads version x hx {}) h.Results) : Step _ _ _) t0
theorem DescribeConfigsResponse.tame (version : Int16) (t0 : DescribeConfigsResponse) : Tame (DescribeConfigsResponse.decode version t0) :=
  ((TameStep.field tame_int32)
    |>.andThen (TameStep.structs (DescribeConfigsResult32.tame version {})) : TameStep _) t0
theorem DescribeConfigsResponse.calm (version : Int16) (t0 : DescribeConfigsResponse) :
    Calm (DescribeConfigsResponse.decode version t0) (fun _ => True) :=
  ((CalmStep.field tame_int32 calm_int32)
    |>.andThen (CalmStep.structs (DescribeConfigsResult32.tame version {}) (DescribeConfigsResult32.calm version {})) : CalmStep _).2 t0
theorem DescribeConfigsResponse.canon (version : Int16) (t : DescribeConfigsResponse) (h : t.Canon version) :
    t.seen version {} = t :=
  DescribeConfigsResponse.ext rfl (canon_structs (DescribeConfigsResult32.canon version) h.Results)
theorem DescribeConfigsResponse.again (version : Int16) (t t0 : DescribeConfigsResponse) :
    DescribeConfigsResponse.wire version (t.seen version t0) = DescribeConfigsResponse.wire version t :=
  app_congr (rfl) (again_structs (fun x => DescribeConfigsResult32.again version x {}) t.Results)
theorem DescribeConfigsResponse.lawful : Lawful DescribeConfigsResponse.type DescribeConfigsResponse.layout :=
  ⟨DescribeConfigsResponse.emits, DescribeConfigsResponse.sized, DescribeConfigsResponse.reads, DescribeConfigsResponse.tame, DescribeConfigsResponse.calm, DescribeConfigsResponse.canon, DescribeConfigsResponse.again⟩

end Kafka.Msg
