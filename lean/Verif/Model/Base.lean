/-
Common definitions of the model: abnormal outcomes, packets, parsed tables and
the constants of the code.
-/
namespace Mirakc

/-- Abnormal outcomes.  They stand for process termination or undefined
behaviour of the C++ program.
* `assertFail`: `MIRAKC_ARIB_ASSERT*` fails (src/logging.hh), the process aborts;
* `uncaught`: a C++ exception nobody catches (`std::bad_optional_access`,
  `std::out_of_range`, `std::invalid_argument`);
* `oob`: access outside a buffer (undefined behaviour);
* `overflow`: a signed integer operation overflows (undefined behaviour);
* `diverge`: the fuel given to a loop was not sufficient (used only to show that
  loops terminate). -/
inductive Fault where
  | assertFail
  | uncaught
  | oob
  | overflow
  | diverge
deriving DecidableEq, Repr

deriving instance DecidableEq for Except

/-- `MIRAKC_ARIB_ASSERT(cond)` (src/logging.hh). -/
def assertThat (c : Bool) : Except Fault Unit :=
  if c then .ok () else .error .assertFail

/-- The result of an operation on `int64_t`. -/
def int64 (x : Int) : Except Fault Int :=
  if -9223372036854775808 ≤ x && x ≤ 9223372036854775807 then .ok x else .error .overflow

/-- `ts::PKT_SIZE`. -/
def pktSize : Nat := 188

/-- `ts::SYNC_BYTE`. -/
def syncByte : UInt8 := 0x47

/-- `kBlockSize`, src/base.hh:13. -/
def blockSize : Nat := 4096

/-- `EXIT_SUCCESS` of the C library. -/
def exitSuccess : Nat := 0
/-- `EXIT_FAILURE` of the C library. -/
def exitFailure : Nat := 1
/-- `EXIT_RETRY`, src/exit_code.hh. -/
def exitRetry : Nat := 222

end Mirakc
