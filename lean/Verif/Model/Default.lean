import Verif.Model.Packet

/-
The values of `Default::default()` (derived): zero for numbers, `false`, empty for strings, lists, sets and maps.
-/

namespace Dns

/-- `FQDN::default()`, src/fqdn.rs:17-20: no labels, which is the root. -/
def Fqdn.default : Fqdn := []
/-- `Eui64::default()`, src/rdata/eui64.rs:10-11. -/
def Eui64.default : Eui64 := ⟨0⟩
/-- `Eui48::default()`, src/rdata/eui48.rs:10-11. -/
def Eui48.default : Eui48 := ⟨0⟩
/-- `Opt::default()`, src/rdata/opt.rs:26-27. -/
def Opt.default : Opt := ⟨[]⟩
/-- `Loc::default()`, src/rdata/loc.rs:14-56. -/
def Loc.default : Loc := ⟨0, 0, 0, 0, 0, 0, 0⟩
/-- `OpenPgpKey::default()`, src/rdata/openpgpkey.rs:15-16. -/
def OpenPgpKey.default : OpenPgpKey := ⟨[]⟩
/-- `Uri::default()`, src/rdata/uri.rs:20-28. -/
def Uri.default : Uri := ⟨0, 0, []⟩
/-- `Caa::default()`, src/rdata/caa.rs:11-19. -/
def Caa.default : Caa := ⟨false, [], []⟩
/-- `Soa::default()`, src/rdata/soa.rs:13-46. -/
def Soa.default : Soa := ⟨.default, .default, 0, 0, 0, 0, 0⟩
/-- `Naptr::default()`, src/rdata/naptr.rs:16-44. -/
def Naptr.default : Naptr := ⟨0, 0, [], [], [], .default⟩
/-- `Csync::default()`, src/rdata/csync.rs:38-47; the flags are `Flags::default()`, src/rdata/csync.rs:182-183. -/
def Csync.default : Csync := ⟨0, ⟨0⟩, []⟩
/-- `Cname::default()`, src/rdata/cname.rs:20-23. -/
def Cname.default : Cname := ⟨.default⟩
/-- `Srv::default()`, src/rdata/srv.rs:14-34. -/
def Srv.default : Srv := ⟨0, 0, 0, .default⟩

end Dns
