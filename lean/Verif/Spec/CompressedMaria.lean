import Verif.Spec.Stream
/-!
# Statements as MariaDB writes them with `log_bin_compress`
-/

namespace MysqlCdc.Spec

/-- A statement of its own, such as DDL, of a MariaDB server with `log_bin_compress`: its GTID and a QUERY_COMPRESSED_EVENT (165), which the library
does not know. Neutral events may come in between. -/
inductive CompressedStatement (g : MGtid) : List Ev → Prop where
  | mk {h0 h1 : EventHeader} {x : MariaGtidEvent} {mid : List Ev} (hx : x.gtid = g) (hm : ∀ p ∈ mid, Neutral p.2) (h : h1.eventType = 165) :
      CompressedStatement g ((h0, .mariaDbGtid x) :: mid ++ [(h1, .unknown)])

/-- Parts of a stream: transactions with their GTID, compressed statements, neutral events. -/
def MariaOrCompressed (g : Option MGtid) (es : List Ev) : Prop :=
  match g with
  | some g => MariaTx g es
  | none => ∃ g, CompressedStatement g es

end MysqlCdc.Spec
