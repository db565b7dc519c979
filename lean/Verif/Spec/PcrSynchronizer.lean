import Verif.Model.PcrSynchronizer
import Verif.Spec.History
/-
Specification of sync-clocks: what was received, in the order in which it was received,
and what follows from it.
-/
namespace Mirakc.Spec.PcrSynchronizer
open Mirakc.PcrSynchronizer

/-- What is received: a table, or a packet. -/
inductive Ev where
  | tab (t : Table)
  | pkt (p : Packet)
deriving DecidableEq

/-- What was received during the packets of a history: the tables completed by a packet
that are looked at, then the packet itself. -/
def log (items : List (Line Input (List Table))) : List Ev :=
  items.flatMap fun it => it.did.map .tab ++ [.pkt it.input.packet]

/-- A PAT in its place, valid, of a stream with an id. -/
def patOf : Ev → Option Pat
  | .tab { sourcePid := 0, valid := true, body := .pat p, .. } => if p.tsId = 0 then none else some p
  | _ => none
/-- A valid SDT. -/
def sdtOf : Ev → Option Sdt
  | .tab { valid := true, body := .sdt x, .. } => some x
  | _ => none
/-- The time of a valid TOT. -/
def totOf : Ev → Option Int
  | .tab { valid := true, body := .tot x, .. } => some x
  | _ => none
/-- A valid PMT, with its PID. -/
def pmtOf : Ev → Option (Nat × Pmt)
  | .tab { sourcePid := pid, valid := true, body := .pmt x, .. } => some (pid, x)
  | _ => none

/-- The latest PAT. -/
def latestPat (l : List Ev) : Option Pat := (l.filterMap patOf).getLast?

/-- What was received since the latest PAT. -/
def sincePat (l : List Ev) : List Ev := (l.reverse.takeWhile fun e => (patOf e).isNone).reverse

/-- What was received since the PAT changed; the first PAT is no change. -/
def sinceChange (l : List Ev) : List Ev :=
  if (l.filterMap patOf).length ≤ 1 then l else sincePat l

/-- The options select the service. -/
def Selected (o : Opt) (sid : Nat) : Prop := (o.sids = [] ∨ sid ∈ o.sids) ∧ sid ∉ o.xsids

instance (o : Opt) (sid : Nat) : Decidable (Selected o sid) := by unfold Selected; infer_instance

/-- The service is selected and in the latest PAT, which says that its PMT is on the PID. -/
def Listed (o : Opt) (l : List Ev) (sid pid : Nat) : Prop :=
  Selected o sid ∧ ∃ pat, latestPat l = some pat ∧ pat.pmts.find? sid = some pid

instance (o : Opt) (l : List Ev) (sid pid : Nat) : Decidable (Listed o l sid pid) :=
  decidable_of_iff (Selected o sid ∧ ∃ pat ∈ latestPat l, pat.pmts.find? sid = some pid) (by
    simp [Listed, Option.mem_def])

/-- The PMTs of the services listed, received since the latest PAT. -/
def pmts (o : Opt) (l : List Ev) : List Pmt :=
  ((sincePat l).filterMap pmtOf).filterMap fun (pid, x) => if Listed o l x.serviceId pid then some x else none

/-- The PID of the clock of the service, by the latest PMT. -/
def clockPid (o : Opt) (l : List Ev) (sid : Nat) : Option Nat :=
  ((pmts o l).filter (·.serviceId == sid)).getLast?.map (·.pcrPid)

/-- There is a clock on the PID; 0x1FFF says that a service has no clock. -/
def IsClock (o : Opt) (l : List Ev) (pid : Nat) : Prop :=
  pid ≠ 0x1FFF ∧ ∃ x ∈ pmts o l, x.pcrPid = pid

/-- PCRs on the PID are looked at: there is a clock on the PID, and a TOT was received. -/
def Looked (o : Opt) (l : List Ev) (pid : Nat) : Prop :=
  IsClock o l pid ∧ (sinceChange l).filterMap totOf ≠ []

/-- After `a`, the packet `p` has the PCR `v`, the first one on the PID that was looked at
since the latest PAT; no PAT is in what follows. -/
def CapturedAt (o : Opt) (a : List Ev) (p : Packet) (b : List Ev) (pid : Nat) (v : Int) : Prop :=
  b.filterMap patOf = [] ∧ p.pid = pid ∧ p.pcr = some v ∧ Looked o a pid ∧
    ∀ a1 q a2, a = a1 ++ .pkt q :: a2 → a2.filterMap patOf = [] → q.pid = pid → q.pcr ≠ none →
      ¬ Looked o a1 pid

/-- `v` is the first PCR on the PID that was looked at since the latest PAT. -/
def Captured (o : Opt) (l : List Ev) (pid : Nat) (v : Int) : Prop :=
  ∃ a p b, l = a ++ .pkt p :: b ∧ CapturedAt o a p b pid v

/-- There are clocks, and a PCR of each of them was looked at. -/
def AllCaptured (o : Opt) (l : List Ev) : Prop :=
  (∃ pid, IsClock o l pid) ∧ ∀ pid, IsClock o l pid → ∃ v, Captured o l pid v

/-- The PAT lists no service that is selected. -/
def SelectsNone (o : Opt) (pat : Pat) : Prop := ∀ sid pid, pat.pmts.find? sid = some pid → ¬ Selected o sid

/-- One of the latest two PATs lists no service that is selected.  (If packets have at
most one PAT each, it is the latest.) -/
def NothingSelected (o : Opt) (l : List Ev) : Prop :=
  ∃ pat ∈ (l.filterMap patOf).reverse.take 2, SelectsNone o pat

/-- The type of a service with audio or video (ARIB STD-B10): digital TV, digital audio,
and the temporary and other kinds mirakc supports. -/
def AudioVideo (n : Nat) : Prop := n ∈ [0x01, 0x02, 0xA1, 0xA2, 0xA5, 0xA6, 0xAD]

/-- The SDTs received since the latest PAT. -/
def sdts (l : List Ev) : List Sdt := (sincePat l).filterMap sdtOf

/-- An SDT received since the latest PAT says that the service is one with audio or video. -/
def HasAudioVideo (l : List Ev) (sid : Nat) : Prop :=
  ∃ sdt ∈ sdts l, ∃ x, sdt.services.find? sid = some x ∧ AudioVideo x.serviceType

/-- The PATs give each service that is selected a PID of its own for its PMT, other than
those of the PAT, the SDT and the TOT, and TOTs are on their PID. -/
def Regular (o : Opt) (l : List Ev) : Prop :=
  (∀ e ∈ l, ∀ pat, patOf e = some pat →
    (∀ sid pid, Selected o sid → pat.pmts.find? sid = some pid → pid ∉ [0x00, 0x11, 0x14]) ∧
    ∀ sid sid' pid, Selected o sid → Selected o sid' → pat.pmts.find? sid = some pid →
      pat.pmts.find? sid' = some pid → sid = sid') ∧
  ∀ t, .tab t ∈ l → totOf (.tab t) ≠ none → t.sourcePid = 0x14

/-- The PMTs of all selected services with audio or video are known. -/
def PmtsKnown (o : Opt) (l : List Ev) : Prop :=
  ∀ sid pid, Listed o l sid pid → HasAudioVideo l sid → clockPid o l sid ≠ none

/-- The latest TOT. -/
def latestTot (l : List Ev) : Int := (l.filterMap totOf).getLast?.getD 0

/-- The network and the stream of the latest SDT. -/
def ids (l : List Ev) : Nat × Nat :=
  (((sinceChange l).filterMap sdtOf).getLast?.map fun x => (x.onetwId, x.tsId)).getD (0, 0)

/-- sync-clocks with the options, offered the packets, ended with the exit code. -/
def Synced (o : Opt) (is : List Input) (code : Nat) (h : Hist) : Prop :=
  Ran (sink o) { st := {} } is code h

end Mirakc.Spec.PcrSynchronizer
