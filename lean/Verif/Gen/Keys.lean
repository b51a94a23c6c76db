/-!
Generated by tools/gen_broker.py from message/keys.go: the api key constants.
-/
namespace Kafka.Key

/-- message/keys.go:20 -/
def produce : Int16 := 0
/-- message/keys.go:21 -/
def fetch : Int16 := 1
/-- message/keys.go:22 -/
def listOffset : Int16 := 2
/-- message/keys.go:23 -/
def metadata : Int16 := 3
/-- message/keys.go:24 -/
def leaderAndIsr : Int16 := 4
/-- message/keys.go:25 -/
def stopReplica : Int16 := 5
/-- message/keys.go:26 -/
def updateMetadata : Int16 := 6
/-- message/keys.go:27 -/
def controlledShutdown : Int16 := 7
/-- message/keys.go:28 -/
def offsetCommit : Int16 := 8
/-- message/keys.go:29 -/
def offsetFetch : Int16 := 9
/-- message/keys.go:30 -/
def findCoordinator : Int16 := 10
/-- message/keys.go:31 -/
def joinGroup : Int16 := 11
/-- message/keys.go:32 -/
def heartbeat : Int16 := 12
/-- message/keys.go:33 -/
def leaveGroup : Int16 := 13
/-- message/keys.go:34 -/
def syncGroup : Int16 := 14
/-- message/keys.go:35 -/
def describeGroups : Int16 := 15
/-- message/keys.go:36 -/
def listGroups : Int16 := 16
/-- message/keys.go:37 -/
def saslHandshake : Int16 := 17
/-- message/keys.go:38 -/
def apiVersions : Int16 := 18
/-- message/keys.go:39 -/
def createTopics : Int16 := 19
/-- message/keys.go:40 -/
def deleteTopics : Int16 := 20
/-- message/keys.go:41 -/
def deleteRecords : Int16 := 21
/-- message/keys.go:42 -/
def initProducerId : Int16 := 22
/-- message/keys.go:43 -/
def offsetForLeaderEpoch : Int16 := 23
/-- message/keys.go:44 -/
def addPartitionsToTxn : Int16 := 24
/-- message/keys.go:45 -/
def addOffsetsToTxn : Int16 := 25
/-- message/keys.go:46 -/
def endTxn : Int16 := 26
/-- message/keys.go:47 -/
def writeTxnMarkers : Int16 := 27
/-- message/keys.go:48 -/
def txnOffsetCommit : Int16 := 28
/-- message/keys.go:49 -/
def describeAcls : Int16 := 29
/-- message/keys.go:50 -/
def createAcls : Int16 := 30
/-- message/keys.go:51 -/
def deleteAcls : Int16 := 31
/-- message/keys.go:52 -/
def describeConfigs : Int16 := 32
/-- message/keys.go:53 -/
def alterConfigs : Int16 := 33
/-- message/keys.go:54 -/
def alterReplicaLogDirs : Int16 := 34
/-- message/keys.go:55 -/
def describeLogDirs : Int16 := 35
/-- message/keys.go:56 -/
def saslAuthenticate : Int16 := 36
/-- message/keys.go:57 -/
def createPartitions : Int16 := 37
/-- message/keys.go:58 -/
def createDelegationToken : Int16 := 38
/-- message/keys.go:59 -/
def renewDelegationToken : Int16 := 39
/-- message/keys.go:60 -/
def expireDelegationToken : Int16 := 40
/-- message/keys.go:61 -/
def describeDelegationToken : Int16 := 41
/-- message/keys.go:62 -/
def deleteGroups : Int16 := 42
/-- message/keys.go:63 -/
def electLeaders : Int16 := 43
/-- message/keys.go:64 -/
def incrementalAlterConfigs : Int16 := 44
/-- message/keys.go:65 -/
def alterPartitionReassignments : Int16 := 45
/-- message/keys.go:66 -/
def listPartitionReassignments : Int16 := 46
/-- message/keys.go:67 -/
def offsetDelete : Int16 := 47

end Kafka.Key
