import Verif.Spec.Observe

/-!
# Arrays of requests: what a client expects

Everything is expressed with MPI_Test on single requests *in the state before the call*.
-/

set_option autoImplicit false

namespace MpiSerial

/-- What a caller of MPI_Test sees: `*request`, `*flag`, `*status`. -/
def testView (s : Sys) (h : Int) (st : StPtr) : Res (Int × Int × StPtr) :=
  MPI_Test s h st >>= fun r => .ok (r.request, r.flag, r.status)

/-- An array that may be passed: every entry is MPI_REQUEST_NULL or a live request, and no request
occurs twice. -/
def WfReqs (L : Ledger) : List Int → Prop
  | [] => True
  | h :: hs => (h = MPI_REQUEST_NULL ∨ ((∃ i, (h, Obj.req i) ∈ L.objs) ∧ h ∉ hs)) ∧ WfReqs L hs

/-- `TestedEach s hs sts hs' sts' d`: testing each request of `hs` on its own in state `s`, with the
status objects `sts`, gives the handles `hs'` and the statuses `sts'`; `d` are those for which it gives
flag 1, for the others it gives flag 0. -/
inductive TestedEach (s : Sys) : List Int → List Status → List Int → List Status → List Int → Prop
  | nil : TestedEach s [] [] [] [] []
  | done {h h' st st' hs sts hs' sts' d} : testView s h (.obj st) = .ok (h', 1, .obj st') →
      TestedEach s hs sts hs' sts' d → TestedEach s (h :: hs) (st :: sts) (h' :: hs') (st' :: sts') (h :: d)
  | not {h h' st st' hs sts hs' sts' d} : testView s h (.obj st) = .ok (h', 0, .obj st') →
      TestedEach s hs sts hs' sts' d → TestedEach s (h :: hs) (st :: sts) (h' :: hs') (st' :: sts') d

/-- From `s` to `s'` the requests `hs`, and nothing else, have been released: the handles in `hs` are no
longer live, all others are; nothing but the handle table has changed; every request still live looks to
MPI_Test as before. -/
structure Released (env : Env) (s : Sys) (L : Ledger) (hs : List Int) (s' : Sys) : Prop where
  reach : Reach env s' { L with objs := L.objs.filter (fun e => decide (e.1 ∉ hs)) }
  rest : s' = { s with handles := s'.handles }
  same : ∀ h i, (h, Obj.req i) ∈ L.objs → h ∉ hs → ∀ st, testView s' h st = testView s h st

end MpiSerial
