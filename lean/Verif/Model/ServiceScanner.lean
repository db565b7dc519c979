import Verif.Model.PcrSynchronizer
/-
Model of `ServiceScanner`, src/service_scanner.hh.
-/
namespace Mirakc.ServiceScanner

/-- `ServiceScannerOption`, src/service_scanner.hh:20-23; the sets are lists. -/
structure Opt where
  sids : List Nat := []
  xsids : List Nat := []
deriving DecidableEq

/-- An element of the JSON array that is printed, src/service_scanner.hh:199-208.
`remoteControlKeyId` is `none` if the member is not there. -/
structure ServiceEntry where
  nid : Nat
  tsid : Nat
  sid : Nat
  name : String
  type : Nat
  logoId : Int
  remoteControlKeyId : Option Nat
deriving DecidableEq

/-- Data members, src/service_scanner.hh:236-241, initialised in the constructor,
src/service_scanner.hh:31-37.  `out` is the document printed. -/
structure St where
  demux : PidSet := [pidPat, pidNit, pidSdt]
  pat : Option Pat := none
  sdt : Option Sdt := none
  nit : Option Nit := none
  out : Option (List ServiceEntry) := none
deriving DecidableEq

/-- `completed`, src/service_scanner.hh:69-72. -/
def completed (s : St) : Bool := s.pat.isSome && s.sdt.isSome && s.nit.isSome

/-- `HandlePat`, src/service_scanner.hh:90-117. -/
def handlePat (s : St) (t : Table) (pat : Pat) : St :=
  if t.sourcePid != pidPat then s
  else if !t.valid then s
  else if pat.tsId == 0 then s
  else
    let s :=
      if pat.nitPid != pidNull && pat.nitPid != pidNit then
        { s with nit := none, demux := (s.demux.remove pidNit).add pat.nitPid }
      else s
    { s with pat := some pat }

/-- `HandleNit`, src/service_scanner.hh:119-129. -/
def handleNit (s : St) (t : Table) (nit : Nit) : St :=
  if !t.valid then s else { s with nit := some nit }

/-- `HandleSdt`, src/service_scanner.hh:131-146. -/
def handleSdt (s : St) (t : Table) (sdt : Sdt) : St :=
  if !t.valid then s
  else if sdt.tsId == 0 then s
  else { s with sdt := some sdt }

/-- `handleTable`, src/service_scanner.hh:74-88. -/
def handleTable (s : St) (t : Table) : Except Fault St :=
  match t.body with
  | .pat pat => .ok (handlePat s t pat)
  | .nit nit => .ok (handleNit s t nit)
  | .sdt sdt => .ok (handleSdt s t sdt)
  | _ => .ok s

/-- `HandlePacket`, src/service_scanner.hh:59-66. -/
def step (s : St) (i : Input) : Except Fault (St × Unit × Bool) := do
  let (s, _) ← feedDemux St.demux handleTable i.packet.pid i.tables s
  if completed s then .ok (s, (), false)
  else .ok (s, (), true)

/-- `GetRemoteControlKeyId`, src/service_scanner.hh:213-234. -/
def remoteControlKeyId (sdt : Sdt) : Option Nit → Nat
  | none => 0
  | some nit =>
    match nit.transports.lookup (sdt.tsId, sdt.onetwId) with
    | none => 0
    | some [] => 0
    | some (key :: _) => key

/-- The logo id, src/service_scanner.hh:183-191. -/
def logoId (service : Service) : Int :=
  match service.logo with
  | none => -1
  | some (type, id) => if type == 1 || type == 2 then id else -1

/-- The loop of `CollectServices`, src/service_scanner.hh:160-210. -/
def collectLoop (o : Opt) (sdt : Sdt) (nit : Option Nit) : List (Nat × Nat) → List ServiceEntry
  | [] => []
  | (sid, _) :: l =>
    if !o.sids.isEmpty && !o.sids.contains sid then collectLoop o sdt nit l
    else if !o.xsids.isEmpty && o.xsids.contains sid then collectLoop o sdt nit l
    else
      match sdt.services.find? sid with
      | none => collectLoop o sdt nit l
      | some service =>
        if !isAudioVideoService service.serviceType then collectLoop o sdt nit l
        else
          let key := remoteControlKeyId sdt nit
          { nid := sdt.onetwId
            tsid := sdt.tsId
            sid := sid
            name := service.name
            type := service.serviceType
            logoId := logoId service
            remoteControlKeyId := if key != 0 then some key else none } :: collectLoop o sdt nit l

/-- `CollectServices`, src/service_scanner.hh:148-211. -/
def collectServices (o : Opt) (s : St) : List ServiceEntry :=
  match s.pat with
  | none => []
  | some pat =>
    match s.sdt with
    | none => []
    | some sdt => collectLoop o sdt s.nit pat.pmts.entries

/-- `End`, src/service_scanner.hh:41-50. -/
def finish (o : Opt) (s : St) : Except Fault St :=
  if !completed s then .ok s else .ok { s with out := some (collectServices o s) }

/-- `GetExitCode`, src/service_scanner.hh:52-57. -/
def exitCode (s : St) : Nat := if !completed s then exitFailure else exitSuccess

/-- The scanner with the packets it consumed. -/
abbrev Hist := History Input St Unit

/-- `ServiceScanner` as a sink. -/
def sink (o : Opt) : Sink Input Hist := historySink step (finish o) exitCode

end Mirakc.ServiceScanner
