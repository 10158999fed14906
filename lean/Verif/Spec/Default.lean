import Verif.Model.Default
import Verif.Spec.Writable

/-
Records with the default values of Rust as their data.
-/

namespace Dns.Spec

/-- All data of records that have a default value. -/
def defaultData : List RecordData :=
  [.EUI64 .default, .EUI48 .default, .OPT .default, .LOC .default, .OPENPGPKEY .default, .URI .default, .CAA .default,
    .SOA .default, .NAPTR .default, .CSYNC .default, .CNAME .default, .SRV .default]

/-- A record with default data whose other fields have the values of the wire format. -/
def DefaultRecord (cfg : Cfg) (r : ResourceRecord) : Prop :=
  r.rdata ∈ defaultData ∧ r.type = r.rdata.type ∧ NameOk 191 r.name ∧ classOk r.class_ ∧
    classNumber r.class_ < 32768 ∧ (r.cacheFlush = true → cfg.mdns = true)

end Dns.Spec
