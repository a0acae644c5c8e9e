import Verif.Model.Extensions
/-!
# Packets sent by the server (src/responses) and `check_error_packet`
-/

namespace MysqlCdc

/-- `AuthPluginSwitchPacket`, src/responses/auth_switch_packet.rs:7-10 -/
structure AuthPluginSwitchPacket where
  authPluginName : RStr
  authPluginData : RStr
  deriving DecidableEq, Repr

/-- `AuthPluginSwitchPacket::parse`, src/responses/auth_switch_packet.rs:13-23 -/
def parseAuthSwitch : P AuthPluginSwitchPacket := do
  let authPluginName ← readNullTermString
  let authPluginData ← readNullTermString
  return { authPluginName, authPluginData }

/-- `EndOfFilePacket`, src/responses/end_of_file_packet.rs:7-10 -/
structure EndOfFilePacket where
  warningCount : Nat
  serverStatus : Nat
  deriving DecidableEq, Repr

/-- `EndOfFilePacket::parse`, src/responses/end_of_file_packet.rs:13-23 -/
def parseEndOfFile : P EndOfFilePacket := do
  let warningCount ← P.uLE 2
  let serverStatus ← P.uLE 2
  return { warningCount, serverStatus }

/-- `ErrorPacket`, src/responses/error_packet.rs:7-11 -/
structure ErrorPacket where
  errorCode : Nat
  errorMessage : RStr
  sqlState : Option RStr
  deriving DecidableEq, Repr

/-- `ErrorPacket::parse`, src/responses/error_packet.rs:14-33 -/
def parseErrorPacket : P ErrorPacket := do
  let errorCode ← P.uLE 2
  let errorMessage ← readToString
  if errorMessage.head? = some '#' then
    return { errorCode, errorMessage := errorMessage.drop 6, sqlState := some ((errorMessage.drop 1).take 5) }
  else
    return { errorCode, errorMessage, sqlState := none }

/-- `HandshakePacket`, src/responses/handshake_packet.rs:10-21 -/
structure HandshakePacket where
  protocolVersion : Nat
  serverVersion : RStr
  connectionId : Nat
  scramble : RStr
  serverCapabilities : Nat
  serverCollation : Nat
  statusFlags : Nat
  filler : RStr
  authPluginLength : Nat
  authPluginName : RStr
  deriving DecidableEq, Repr

/-- `HandshakePacket::parse`, src/responses/handshake_packet.rs:24-75 -/
def parseHandshake : P HandshakePacket := do
  let protocolVersion ← P.u8
  let serverVersion ← readNullTermString
  let connectionId ← P.uLE 4
  let scramble ← readNullTermString
  let flags1 ← P.readVec 2
  let serverCollation ← P.u8
  let statusFlags ← P.uLE 2
  let flags2 ← P.readVec 2
  let authPluginLength ← P.u8
  let filler ← readString 6
  let flags3 ← P.readVec 4
  -- `Cursor::new(&capability_flags).read_u64::<LittleEndian>()` over the eight bytes
  let serverCapabilities := leVal (flags1 ++ flags2 ++ flags3)
  let scramble ← if serverCapabilities &&& CAP_SECURE_CONNECTION > 0 then do
      let more ← readNullTermString
      pure (scramble ++ more)
    else pure scramble
  let authPluginName ← if serverCapabilities &&& CAP_PLUGIN_AUTH > 0 then readNullTermString else pure []
  return { protocolVersion, serverVersion, connectionId, scramble, serverCapabilities, serverCollation, statusFlags, filler,
           authPluginLength, authPluginName }

/-- `ResultSetRowPacket::parse`, src/responses/result_set_row_packet.rs:12-23. The packet is its list of cells. -/
def parseResultSetRow : P (List RStr) := P.whileData readLenEncStr

/-- `check_error_packet`, src/extensions.rs:139-146. `packet[0]` panics on an empty packet. -/
def checkErrorPacket (packet : Bytes) (message : String) : Res Unit :=
  match packet with
  | [] => .panic
  | b :: rest =>
    if b = RESP_ERROR then
      match parseErrorPacket.run rest with
      | .ok error => .err (.server message error.errorCode error.errorMessage error.sqlState)
      | .err e => .err e
      | .panic => .panic
      | .hang => .hang
    else .ok ()

end MysqlCdc
