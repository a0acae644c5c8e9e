import Verif.Model.Session
/-!
# How many packets the client sends to set up replication
-/

namespace MysqlCdc.Spec

/-- The most packets that the client sends to set up replication. Where encryption is required this is only the request for it. Otherwise it logs in with at
most four packets: its answer to the greeting, the answer for another plugin, the request for a key and the encrypted password. Three requests are about the
heartbeat and the checksums, one asks for the end of the log where it has to be found, and the last ones ask for the log: by GTID six at most with a list
of GTIDs and one without, otherwise two. -/
def mostSent (o : ReplicaOptions) : Nat :=
  if o.sslMode = .disabled ∨ o.sslMode = .ifAvailable then
    4 + 3 + (if o.binlog.startingStrategy = .fromEnd ∧ o.binlog.filename = [] then 1 else 0) +
      (if o.binlog.startingStrategy = .fromGtid then if o.binlog.gtidList = none then 1 else 6 else 2)
  else 1

/-- The fewest packets with which replication is set up: one to log in, three about the heartbeat and the checksums, one that asks for the log, and one where its
end has to be found. -/
def leastSent (o : ReplicaOptions) : Nat := 5 + (if o.binlog.startingStrategy = .fromEnd ∧ o.binlog.filename = [] then 1 else 0)

end MysqlCdc.Spec
