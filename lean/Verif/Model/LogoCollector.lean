import Verif.Model.History
/-
Model of `LogoCollector`, src/logo_collector.hh.

Logos are found by LibISDB, which is not modelled: with every packet comes an arbitrary list
of logos downloaded, and the result of LibISDB (`OutputData`).  `cppcodec::base64_rfc4648`
is an arbitrary function `base64`.  Log messages are left out.
-/
namespace Mirakc.LogoCollector

/-- `kChunks`, src/logo_collector.hh:34-80. -/
def chunks : List UInt8 :=
  [0x00, 0x00, 0x01, 0x83, 0x50, 0x4c, 0x54, 0x45, 0x00, 0x00, 0x00, 0xff, 0x00, 0x00, 0x00, 0xff, 0x00, 0xff, 0xff, 0x00,
   0x00, 0x00, 0xff, 0xff, 0x00, 0xff, 0x00, 0xff, 0xff, 0xff, 0xff, 0xff, 0x00, 0x00, 0x00, 0xaa, 0x00, 0x00, 0x00, 0xaa,
   0x00, 0xaa, 0xaa, 0x00, 0x00, 0x00, 0xaa, 0xaa, 0x00, 0xaa, 0x00, 0xaa, 0xaa, 0xaa, 0xaa, 0xaa, 0x00, 0x00, 0x55, 0x00,
   0x55, 0x00, 0x00, 0x55, 0x55, 0x00, 0x55, 0xaa, 0x00, 0x55, 0xff, 0x00, 0xaa, 0x55, 0x00, 0xaa, 0xff, 0x00, 0xff, 0x55,
   0x00, 0xff, 0xaa, 0x55, 0x00, 0x00, 0x55, 0x00, 0x55, 0x55, 0x00, 0xaa, 0x55, 0x00, 0xff, 0x55, 0x55, 0x00, 0x55, 0x55,
   0x55, 0x55, 0x55, 0xaa, 0x55, 0x55, 0xff, 0x55, 0xaa, 0x00, 0x55, 0xaa, 0x55, 0x55, 0xaa, 0xaa, 0x55, 0xaa, 0xff, 0x55,
   0xff, 0x00, 0x55, 0xff, 0x55, 0x55, 0xff, 0xaa, 0x55, 0xff, 0xff, 0xaa, 0x00, 0x55, 0xaa, 0x00, 0xff, 0xaa, 0x55, 0x00,
   0xaa, 0x55, 0x55, 0xaa, 0x55, 0xaa, 0xaa, 0x55, 0xff, 0xaa, 0xaa, 0x55, 0xaa, 0xaa, 0xff, 0xaa, 0xff, 0x00, 0xaa, 0xff,
   0x55, 0xaa, 0xff, 0xaa, 0xaa, 0xff, 0xff, 0xff, 0x00, 0x55, 0xff, 0x00, 0xff, 0xff, 0x55, 0x00, 0xff, 0x55, 0x55, 0xff,
   0x55, 0xaa, 0xff, 0x55, 0xff, 0xff, 0xaa, 0x00, 0xff, 0xaa, 0x55, 0xff, 0xaa, 0xaa, 0xff, 0xaa, 0xff, 0xff, 0xff, 0x55,
   0xff, 0xff, 0xff, 0x00, 0x00, 0x00, 0xff, 0x00, 0x00, 0x00, 0xff, 0x00, 0xff, 0xff, 0x00, 0x00, 0x00, 0xff, 0xff, 0x00,
   0xff, 0x00, 0xff, 0xff, 0xff, 0xff, 0xff, 0xaa, 0x00, 0x00, 0x00, 0xaa, 0x00, 0xaa, 0xaa, 0x00, 0x00, 0x00, 0xaa, 0xaa,
   0x00, 0xaa, 0x00, 0xaa, 0xaa, 0xaa, 0xaa, 0xaa, 0x00, 0x00, 0x55, 0x00, 0x55, 0x00, 0x00, 0x55, 0x55, 0x00, 0x55, 0xaa,
   0x00, 0x55, 0xff, 0x00, 0xaa, 0x55, 0x00, 0xaa, 0xff, 0x00, 0xff, 0x55, 0x00, 0xff, 0xaa, 0x55, 0x00, 0x00, 0x55, 0x00,
   0x55, 0x55, 0x00, 0xaa, 0x55, 0x00, 0xff, 0x55, 0x55, 0x00, 0x55, 0x55, 0x55, 0x55, 0x55, 0xaa, 0x55, 0x55, 0xff, 0x55,
   0xaa, 0x00, 0x55, 0xaa, 0x55, 0x55, 0xaa, 0xaa, 0x55, 0xaa, 0xff, 0x55, 0xff, 0x00, 0x55, 0xff, 0x55, 0x55, 0xff, 0xaa,
   0x55, 0xff, 0xff, 0xaa, 0x00, 0x55, 0xaa, 0x00, 0xff, 0xaa, 0x55, 0x00, 0xaa, 0x55, 0x55, 0xaa, 0x55, 0xaa, 0xaa, 0x55,
   0xff, 0xaa, 0xaa, 0x55, 0xaa, 0xaa, 0xff, 0xaa, 0xff, 0x00, 0xaa, 0xff, 0x55, 0xaa, 0xff, 0xaa, 0xaa, 0xff, 0xff, 0xff,
   0x00, 0x55, 0xff, 0x00, 0xff, 0xff, 0x55, 0x00, 0xff, 0x55, 0x55, 0xff, 0x55, 0xaa, 0xff, 0x55, 0xff, 0xff, 0xaa, 0x00,
   0xff, 0xaa, 0x55, 0xff, 0xaa, 0xaa, 0xff, 0xaa, 0xff, 0xff, 0xff, 0x55, 0xff, 0xff, 0xff, 0x06, 0xdd, 0x27, 0x7b, 0x00,
   0x00, 0x00, 0x81, 0x74, 0x52, 0x4e, 0x53, 0xff, 0xff, 0xff, 0xff, 0xff, 0xff, 0xff, 0xff, 0x00, 0xff, 0xff, 0xff, 0xff,
   0xff, 0xff, 0xff, 0xff, 0xff, 0xff, 0xff, 0xff, 0xff, 0xff, 0xff, 0xff, 0xff, 0xff, 0xff, 0xff, 0xff, 0xff, 0xff, 0xff,
   0xff, 0xff, 0xff, 0xff, 0xff, 0xff, 0xff, 0xff, 0xff, 0xff, 0xff, 0xff, 0xff, 0xff, 0xff, 0xff, 0xff, 0xff, 0xff, 0xff,
   0xff, 0xff, 0xff, 0xff, 0xff, 0xff, 0xff, 0xff, 0xff, 0xff, 0xff, 0xff, 0x80, 0x80, 0x80, 0x80, 0x80, 0x80, 0x80, 0x80,
   0x80, 0x80, 0x80, 0x80, 0x80, 0x80, 0x80, 0x80, 0x80, 0x80, 0x80, 0x80, 0x80, 0x80, 0x80, 0x80, 0x80, 0x80, 0x80, 0x80,
   0x80, 0x80, 0x80, 0x80, 0x80, 0x80, 0x80, 0x80, 0x80, 0x80, 0x80, 0x80, 0x80, 0x80, 0x80, 0x80, 0x80, 0x80, 0x80, 0x80,
   0x80, 0x80, 0x80, 0x80, 0x80, 0x80, 0x80, 0x80, 0x80, 0x80, 0x80, 0x80, 0x80, 0x80, 0x80, 0x80, 0x7b, 0x70, 0xf7, 0x6f]

/-- `kIdatOffset`, src/logo_collector.hh:83. -/
def idatOffset : Nat := 33

/-- `std::memcpy(dst + off, src + srcOff, n)`; copying to or from outside of the memory is
undefined. -/
def memcpy (dst : List UInt8) (off : Nat) (src : List UInt8) (srcOff n : Nat) : Except Fault (List UInt8) :=
  if off + n ≤ dst.length ∧ srcOff + n ≤ src.length then
    .ok (dst.take off ++ (src.drop srcOff).take n ++ dst.drop (off + n))
  else .error .oob

/-- `InsertPngChunks`, src/logo_collector.hh:26-99; `size` is the length of `data`.  The
memory made by `std::make_unique` is zero. -/
def insertPngChunks (data : List UInt8) : Except Fault (List UInt8) := do
  let size := data.length
  assertThat (size > idatOffset)
  let png := List.replicate (size + chunks.length) 0
  let p := 0
  let png ← memcpy png p data 0 idatOffset
  let p := p + idatOffset
  let png ← memcpy png p chunks 0 chunks.length
  let p := p + chunks.length
  memcpy png p data idatOffset (size - idatOffset)

/-- `MakeBase64Png`, src/logo_collector.hh:101-105. -/
def makeBase64Png (base64 : List UInt8 → String) (data : List UInt8) : Except Fault String := do
  let png ← insertPngChunks data
  .ok ("data:image/png;base64," ++ base64 png)

/-- Members of the entries of `LogoData::ServiceList` that are used. -/
structure LogoService where
  nid : Nat
  tsid : Nat
  sid : Nat
deriving DecidableEq

/-- Members of `LibISDB::LogoDownloaderFilter::LogoData` that are used; `DataSize` is the
length of `data`. -/
structure Logo where
  type : Nat
  id : Nat
  version : Nat
  data : List UInt8
  nid : Nat
  services : List LogoService
deriving DecidableEq

/-- The JSON document; `services` is absent if there are none. -/
structure Doc where
  type : Nat
  id : Nat
  version : Nat
  data : String
  nid : Nat
  services : Option (List LogoService)
deriving DecidableEq

/-- `MakeJsonValue`, src/logo_collector.hh:223-248. -/
def makeJsonValue (base64 : List UInt8 → String) (logo : Logo) : Except Fault Doc := do
  let data ← makeBase64Png base64 logo.data
  .ok { type := logo.type, id := logo.id, version := logo.version, data := data, nid := logo.nid
        services := if logo.services.length > 0 then some logo.services else none }

/-- `OnLogoDownloaded`, src/logo_collector.hh:203-221; the documents written. -/
def onLogoDownloaded (base64 : List UInt8 → String) (logo : Logo) : Except Fault (List Doc) :=
  if logo.data.length ≤ 93 then .ok []
  else do
    let json ← makeJsonValue base64 logo
    .ok [json]

/-- The calls of `OnLogoDownloaded` during a packet. -/
def onLogos (base64 : List UInt8 → String) : List Logo → Except Fault (List Doc)
  | [] => .ok []
  | l :: ls => do
    let d ← onLogoDownloaded base64 l
    let ds ← onLogos base64 ls
    .ok (d ++ ds)

/-- What comes with a packet: the logos downloaded, and the result of LibISDB. -/
structure LogoInput where
  logos : List Logo
  result : Bool
deriving DecidableEq

/-- `HandlePacket`, src/logo_collector.hh:197-199, 138-141. -/
def step (base64 : List UInt8 → String) (_ : Unit) (i : LogoInput) : Except Fault (Unit × List Doc × Bool) := do
  let ds ← onLogos base64 i.logos
  .ok ((), ds, i.result)

/-- The collector with its history. -/
abbrev Hist := History LogoInput Unit (List Doc)

/-- `LogoCollector` as a sink; `Start`, `End`, src/logo_collector.hh:182-195, only open and
close LibISDB; `GetExitCode` is that of `PacketSink`, src/packet_sink.hh:22-24. -/
def sink (base64 : List UInt8 → String) : Sink LogoInput Hist :=
  historySink (step base64) .ok fun _ => exitSuccess

end Mirakc.LogoCollector
