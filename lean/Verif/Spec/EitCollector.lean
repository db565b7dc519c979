import Verif.Spec.History
import Verif.Model.EitCollector
/-
Specification of collect-eits: which sections are written, and when the command ends.
-/
namespace Mirakc.Spec.EitCollector
open Mirakc.EitCollector

/-- Network, transport stream and service of a section. -/
def service (e : EitSection) : UInt16 × UInt16 × UInt16 := (e.nid, e.tsid, e.sid)
/-- The schedule of a service consists of the basic tables (0x50 to 0x57, 0x60 to 0x67)
and the extended tables (0x58 to 0x5F, 0x68 to 0x6F). -/
def extended (e : EitSection) : Bool := decide (8 ≤ e.tid.toNat % 16)
/-- The service, and which of its two groups of tables. -/
def group (e : EitSection) : (UInt16 × UInt16 × UInt16) × Bool := (service e, extended e)
/-- The number of the table in its group. -/
def tableNo (e : EitSection) : Nat := e.tid.toNat % 8
/-- The number of the last table of the group, as announced by the section. -/
def lastTable (e : EitSection) : Nat := e.lastTableId.toNat % 8
/-- The section number. -/
def number (e : EitSection) : Nat := e.sectionNumber.toNat
/-- The number within the segment (eight sections) of the section. -/
def index (e : EitSection) : Nat := number e % 8
/-- The number of the last section in the segment, as announced by the section. -/
def lastIndex (e : EitSection) : Nat := e.segmentLast.toNat % 8
/-- The last segment of the table, as announced by the section. -/
def lastSegment (e : EitSection) : Nat := e.lastSectionNumber.toNat / 8

/-- The options ask for the section. -/
def Requested (o : Opt) (x : Section) : Prop :=
  x.valid = true ∧ x.next = false ∧
  ((0x50 ≤ x.tid.toNat ∧ x.tid.toNat ≤ 0x5F ∧ o.collectActual = true) ∨
   (0x60 ≤ x.tid.toNat ∧ x.tid.toNat ≤ 0x6F ∧ o.collectOthers = true)) ∧
  6 ≤ x.payload.length ∧ (o.sids = [] ∨ x.ext ∈ o.sids) ∧ x.ext ∉ o.xsids

/-- `e` has the content of the section. -/
def Shows (e : EitSection) (x : Section) : Prop :=
  e.sid = x.ext ∧ e.tid = x.tid ∧ e.version = x.version ∧ e.sectionNumber = x.number ∧
  e.lastSectionNumber = x.last ∧
  ∃ b0 b1 b2 b3 b4 b5, x.payload = b0 :: b1 :: b2 :: b3 :: b4 :: b5 :: e.events ∧
    e.tsid.toNat = 256 * b0.toNat + b1.toNat ∧ e.nid.toNat = 256 * b2.toNat + b3.toNat ∧
    e.segmentLast = b4 ∧ e.lastTableId = b5

/-- What matters in the history: a section was written, or a (valid) TOT was received. -/
inductive Ev where
  | sec (e : EitSection)
  | time (t : Int)
deriving DecidableEq

/-- What matters in a call from the demultiplexer. -/
def evOf (c : DemuxCall) : Option Ev :=
  match c.out with
  | some e => some (.sec e)
  | none =>
    match c.event with
    | .table t =>
      match t.body with
      | .tot time => if t.valid = true then some (.time time) else none
      | _ => none
    | .sect _ => none

/-- All calls of a piece of history. -/
def calls (items : List (Line SectionInput (List DemuxCall))) :
    List DemuxCall :=
  items.flatMap (·.did)

/-- What matters in a piece of history. -/
def log (cs : List DemuxCall) : List Ev := cs.filterMap evOf

/-- The sections written. -/
def sections (l : List Ev) : List EitSection :=
  l.filterMap fun | .sec e => some e | .time _ => none

/-- The times received. -/
def times (l : List Ev) : List Int :=
  l.filterMap fun | .sec _ => none | .time t => some t

/-- The sections of a group. -/
def ofGroup (g : (UInt16 × UInt16 × UInt16) × Bool) (l : List EitSection) : List EitSection :=
  l.filter fun e => decide (group e = g)

/-- The sections at the end of the list that announce `k` as the last table. -/
def trailing (k : Nat) (l : List EitSection) : List EitSection :=
  (l.reverse.takeWhile fun e => decide (lastTable e = k)).reverse

/-- The sections of the list that belong to table `k` of their group and stand at `i`
within their segment or before it, but not after the last of the segment. -/
def covering (k i : Nat) (l : List EitSection) : List EitSection :=
  l.filter fun e => decide (tableNo e = k ∧ index e ≤ i ∧ i ≤ lastIndex e)

/-- The hour of the day of a time in ms (since some midnight). -/
def hourOf (t : Int) : Nat := ((t % 86400000) / 3600000).toNat

/-- Section `n` of table `k` of the group needs no waiting for, the group now being
announced to end with table `m`: since that was announced, the section was written, or a
section was written according to which the table ends before that section's segment or
the segment before that section, or a TOT was received according to which the segment is
in the past of the day (which is table 0). -/
def Accounted (l : List Ev) (g : (UInt16 × UInt16 × UInt16) × Bool) (m k n : Nat) : Prop :=
  (∃ e ∈ trailing m (ofGroup g (sections l)), tableNo e = k ∧
    (number e = n ∨ lastSegment e < n / 8 ∨ (number e / 8 = n / 8 ∧ lastIndex e < n % 8))) ∨
  (k = 0 ∧ ∃ a t b, l = a ++ .time t :: b ∧ n / 8 < hourOf t / 3 ∧
    (ofGroup g (sections a)).getLast?.map lastTable = some m ∧
    ∀ e ∈ ofGroup g (sections b), lastTable e = m)

/-- Every section of every table announced, of every group seen, needs no waiting for. -/
def AllThere (l : List Ev) : Prop :=
  ∀ g e, (ofGroup g (sections l)).getLast? = some e →
    ∀ k ≤ lastTable e, ∀ n < 256, Accounted l g (lastTable e) k n

/-- The stream time: the last TOT. -/
def streamTime (l : List Ev) : Option Int := (times l).getLast?

/-- The history up to the last section written. -/
def upToSection (l : List Ev) : List Ev :=
  (l.reverse.dropWhile fun | .sec _ => false | .time _ => true).reverse

/-- The stream time when a section was last written; the first stream time if that was
before it, or if no section was written. -/
def progressTime (l : List Ev) : Option Int :=
  match streamTime (upToSection l) with
  | some t => some t
  | none => (times l).head?

/-- The stream time has advanced by `limit` since the last progress. -/
def TimedOut (limit : Int) (l : List Ev) : Prop :=
  (streamTime l).getD 0 - (progressTime l).getD 0 ≥ limit

/-- The section would be the repetition of a section written before: since the last
table of its group was announced as it is now, its section number was written for its
table; and the sections from it up to but excluding the last of the segment have the
version of this section, where the version is that of the section last written for the
table (in any segment) that spans the place in the segment. -/
def Known (l : List EitSection) (e : EitSection) : Prop :=
  (∃ e' ∈ trailing (lastTable e) (ofGroup (group e) l), tableNo e' = tableNo e ∧
    number e' = number e) ∧
  ∀ i, index e ≤ i → i < lastIndex e →
    (covering (tableNo e) i (ofGroup (group e) l)).getLast?.map (·.version) = some e.version

/-- collect-eits with the options, offered the packets, ended with the exit code. -/
def Collected (o : Opt) (is : List SectionInput) (code : Nat) (h : Hist) : Prop :=
  ∃ h0, init o = .ok h0 ∧ Ran (sink o) h0 is code h

/-- Network, transport stream and service of a section as broadcast. -/
def origin (x : Section) : Nat × Nat × Nat :=
  (256 * (x.payload.getD 2 0).toNat + (x.payload.getD 3 0).toNat,
   256 * (x.payload.getD 0 0).toNat + (x.payload.getD 1 0).toNat, x.ext.toNat)

/-- The call is for a section of the service. -/
def isOf (g : Nat × Nat × Nat) (c : DemuxCall) : Bool :=
  match c.event with
  | .sect x => decide (origin x = g)
  | .table _ => false

/-- The calls for sections of a service. -/
def ofService (g : Nat × Nat × Nat) (cs : List DemuxCall) : List DemuxCall := cs.filter (isOf g)

end Mirakc.Spec.EitCollector
