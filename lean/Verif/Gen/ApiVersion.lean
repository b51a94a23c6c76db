import Verif.Gen.Keys
/-!
Generated by tools/gen_broker.py from gen.broker.go: the table of negotiated versions and
the `switch` of `negotiateApiVersions`.
-/
namespace Kafka

/-- gen.broker.go:1275-1324 `type apiVersion struct` -/
@[ext] structure ApiVersion where
  Produce : Int16 := 0
  Fetch : Int16 := 0
  ListOffset : Int16 := 0
  Metadata : Int16 := 0
  LeaderAndIsr : Int16 := 0
  StopReplica : Int16 := 0
  UpdateMetadata : Int16 := 0
  ControlledShutdown : Int16 := 0
  OffsetCommit : Int16 := 0
  OffsetFetch : Int16 := 0
  FindCoordinator : Int16 := 0
  JoinGroup : Int16 := 0
  Heartbeat : Int16 := 0
  LeaveGroup : Int16 := 0
  SyncGroup : Int16 := 0
  DescribeGroups : Int16 := 0
  ListGroups : Int16 := 0
  SaslHandshake : Int16 := 0
  ApiVersions : Int16 := 0
  CreateTopics : Int16 := 0
  DeleteTopics : Int16 := 0
  DeleteRecords : Int16 := 0
  InitProducerId : Int16 := 0
  OffsetForLeaderEpoch : Int16 := 0
  AddPartitionsToTxn : Int16 := 0
  AddOffsetsToTxn : Int16 := 0
  EndTxn : Int16 := 0
  WriteTxnMarkers : Int16 := 0
  TxnOffsetCommit : Int16 := 0
  DescribeAcls : Int16 := 0
  CreateAcls : Int16 := 0
  DeleteAcls : Int16 := 0
  DescribeConfigs : Int16 := 0
  AlterConfigs : Int16 := 0
  AlterReplicaLogDirs : Int16 := 0
  DescribeLogDirs : Int16 := 0
  SaslAuthenticate : Int16 := 0
  CreatePartitions : Int16 := 0
  CreateDelegationToken : Int16 := 0
  RenewDelegationToken : Int16 := 0
  ExpireDelegationToken : Int16 := 0
  DescribeDelegationToken : Int16 := 0
  DeleteGroups : Int16 := 0
  ElectLeaders : Int16 := 0
  IncrementalAlterConfigs : Int16 := 0
  AlterPartitionReassignments : Int16 := 0
  ListPartitionReassignments : Int16 := 0
  OffsetDelete : Int16 := 0

/-- One `case` of the switch: `case key: av.F, err = matchVersion(apiKey, lo, hi)`. -/
structure NegotiateCase where
  key : Int16
  lo : Int16
  hi : Int16
  assign : ApiVersion → Int16 → ApiVersion

/-- gen.broker.go:1336-1575: the cases in source order. -/
def negotiateCases : List NegotiateCase :=
  [{ key := Key.produce, lo := 0, hi := 8, assign := fun av v => { av with Produce := v } },
   { key := Key.fetch, lo := 0, hi := 11, assign := fun av v => { av with Fetch := v } },
   { key := Key.listOffset, lo := 0, hi := 5, assign := fun av v => { av with ListOffset := v } },
   { key := Key.metadata, lo := 0, hi := 9, assign := fun av v => { av with Metadata := v } },
   { key := Key.leaderAndIsr, lo := 0, hi := 4, assign := fun av v => { av with LeaderAndIsr := v } },
   { key := Key.stopReplica, lo := 0, hi := 2, assign := fun av v => { av with StopReplica := v } },
   { key := Key.updateMetadata, lo := 0, hi := 6, assign := fun av v => { av with UpdateMetadata := v } },
   { key := Key.controlledShutdown, lo := 0, hi := 3, assign := fun av v => { av with ControlledShutdown := v } },
   { key := Key.offsetCommit, lo := 0, hi := 8, assign := fun av v => { av with OffsetCommit := v } },
   { key := Key.offsetFetch, lo := 0, hi := 6, assign := fun av v => { av with OffsetFetch := v } },
   { key := Key.findCoordinator, lo := 0, hi := 3, assign := fun av v => { av with FindCoordinator := v } },
   { key := Key.joinGroup, lo := 0, hi := 6, assign := fun av v => { av with JoinGroup := v } },
   { key := Key.heartbeat, lo := 0, hi := 4, assign := fun av v => { av with Heartbeat := v } },
   { key := Key.leaveGroup, lo := 0, hi := 4, assign := fun av v => { av with LeaveGroup := v } },
   { key := Key.syncGroup, lo := 0, hi := 4, assign := fun av v => { av with SyncGroup := v } },
   { key := Key.describeGroups, lo := 0, hi := 5, assign := fun av v => { av with DescribeGroups := v } },
   { key := Key.listGroups, lo := 0, hi := 3, assign := fun av v => { av with ListGroups := v } },
   { key := Key.saslHandshake, lo := 0, hi := 1, assign := fun av v => { av with SaslHandshake := v } },
   { key := Key.apiVersions, lo := 0, hi := 3, assign := fun av v => { av with ApiVersions := v } },
   { key := Key.createTopics, lo := 0, hi := 5, assign := fun av v => { av with CreateTopics := v } },
   { key := Key.deleteTopics, lo := 0, hi := 4, assign := fun av v => { av with DeleteTopics := v } },
   { key := Key.deleteRecords, lo := 0, hi := 1, assign := fun av v => { av with DeleteRecords := v } },
   { key := Key.initProducerId, lo := 0, hi := 2, assign := fun av v => { av with InitProducerId := v } },
   { key := Key.offsetForLeaderEpoch, lo := 0, hi := 3, assign := fun av v => { av with OffsetForLeaderEpoch := v } },
   { key := Key.addPartitionsToTxn, lo := 0, hi := 1, assign := fun av v => { av with AddPartitionsToTxn := v } },
   { key := Key.addOffsetsToTxn, lo := 0, hi := 1, assign := fun av v => { av with AddOffsetsToTxn := v } },
   { key := Key.endTxn, lo := 0, hi := 1, assign := fun av v => { av with EndTxn := v } },
   { key := Key.writeTxnMarkers, lo := 0, hi := 0, assign := fun av v => { av with WriteTxnMarkers := v } },
   { key := Key.txnOffsetCommit, lo := 0, hi := 2, assign := fun av v => { av with TxnOffsetCommit := v } },
   { key := Key.describeAcls, lo := 0, hi := 1, assign := fun av v => { av with DescribeAcls := v } },
   { key := Key.createAcls, lo := 0, hi := 1, assign := fun av v => { av with CreateAcls := v } },
   { key := Key.deleteAcls, lo := 0, hi := 1, assign := fun av v => { av with DeleteAcls := v } },
   { key := Key.describeConfigs, lo := 0, hi := 2, assign := fun av v => { av with DescribeConfigs := v } },
   { key := Key.alterConfigs, lo := 0, hi := 1, assign := fun av v => { av with AlterConfigs := v } },
   { key := Key.alterReplicaLogDirs, lo := 0, hi := 1, assign := fun av v => { av with AlterReplicaLogDirs := v } },
   { key := Key.describeLogDirs, lo := 0, hi := 1, assign := fun av v => { av with DescribeLogDirs := v } },
   { key := Key.saslAuthenticate, lo := 0, hi := 1, assign := fun av v => { av with SaslAuthenticate := v } },
   { key := Key.createPartitions, lo := 0, hi := 1, assign := fun av v => { av with CreatePartitions := v } },
   { key := Key.createDelegationToken, lo := 0, hi := 2, assign := fun av v => { av with CreateDelegationToken := v } },
   { key := Key.renewDelegationToken, lo := 0, hi := 1, assign := fun av v => { av with RenewDelegationToken := v } },
   { key := Key.expireDelegationToken, lo := 0, hi := 1, assign := fun av v => { av with ExpireDelegationToken := v } },
   { key := Key.describeDelegationToken, lo := 0, hi := 1, assign := fun av v => { av with DescribeDelegationToken := v } },
   { key := Key.deleteGroups, lo := 0, hi := 2, assign := fun av v => { av with DeleteGroups := v } },
   { key := Key.electLeaders, lo := 0, hi := 2, assign := fun av v => { av with ElectLeaders := v } },
   { key := Key.incrementalAlterConfigs, lo := 0, hi := 1, assign := fun av v => { av with IncrementalAlterConfigs := v } },
   { key := Key.alterPartitionReassignments, lo := 0, hi := 0, assign := fun av v => { av with AlterPartitionReassignments := v } },
   { key := Key.listPartitionReassignments, lo := 0, hi := 0, assign := fun av v => { av with ListPartitionReassignments := v } },
   { key := Key.offsetDelete, lo := 0, hi := 0, assign := fun av v => { av with OffsetDelete := v } }]

end Kafka
