import Verif.Model.Session
/-!
# Where the client connects to (src/packet_channel.rs)
-/

namespace MysqlCdc

/-- `format!("{}:{}", options.hostname, options.port.to_string())`, src/packet_channel.rs:14 -/
def ReplicaOptions.address (o : ReplicaOptions) : RStr := o.hostname ++ ':' :: showNat o.port

/-- `replicate`, src/binlog_client.rs:37-61, in a network: `net a` is what `TcpStream::connect(a)` answers
(src/packet_channel.rs:15). -/
def Client.replicateVia (m : Mode) (c : Crypto) (self : Client) (net : RStr → Except IoKind Channel) : Res BinlogEvents × Client :=
  self.replicate m c (net self.options.address)

end MysqlCdc
