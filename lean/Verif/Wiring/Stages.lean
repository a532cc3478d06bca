import Verif.Wiring.Tables
/-!
# The stages as hand-overs of values

Each `_run` with the wrappers it goes through.  The computing functions are parameters: they may do
anything to the variables they assign to.
-/
set_option autoImplicit false

namespace Verif.Wiring

variable {V : Type} (I : String → List (Option V) → Option V)

/-- `do_filter`, utils/filter.py:122-157: its local variables when it is done. -/
def doFilter (filter uniformity : Frame V → Frame V) (bound : List (String × Option V)) :
    Option (Frame V) := do
  let a ← call I filterInstanceSig filterInstanceCall (start bound)
  let f ← unpack I filterInstanceTargets filterInstanceReturns (filter (start a)) (start bound)
  let b ← call I uniformitySig uniformityCall f
  unpack I uniformityTargets uniformityReturns (uniformity (start b)) f

/-- `PreprocessingStage._run`, stages/preprocessing.py:139-188. -/
def runPreprocessing (select remove : Frame V → Frame V) (inputs : Frame V) : Option (Frame V) := do
  let a ← call I selectSig selectCall inputs
  let f ← unpack I selectTargets selectReturns (after selectAssigned select (start a)) inputs
  let b ← call I removeSig removeCall f
  let g ← unpack I removeTargets removeReturns (after removeAssigned remove (start b)) f
  (call I preprocessingFields preprocessingOut g).map start

/-- `PrelimStage.prelim`, stages/prelim.py:318-377, up to the end of `_prelim` (584-734): its local
variables, from those of the caller. -/
def prelimLocals (body : Frame V → Frame V) (caller : Frame V) : Option (Frame V) := do
  let a ← call I prelimSig prelimCall caller
  let i ← call I prelimInitSig prelimInitCall (start a)
  let b ← call I innerPrelimSig innerPrelimCall (start a)
  return after innerPrelimAssigned body (start (b ++ valuesOf I prelimAttrs (start i)))

/-- `PrelimStage._run`, stages/prelim.py:216-314. -/
def runPrelim (prelim filter : Frame V → Frame V) (inputs : Frame V) : Option (Frame V) := do
  let l ← prelimLocals I prelim inputs
  let f ← unpack I prelimTargets innerPrelimReturns l inputs
  let i ← call I prelimInitSig prelimInitCall2 f
  let b ← call I filterSig filterCall f
  let g ← unpack I filterTargets filterReturns
    (after filterAssigned filter (start (b ++ valuesOf I prelimAttrs (start i)))) f
  (call I prelimFields prelimOut g).map start

/-- The local variables of `SiftedStage._sifted` after its first assignments, reached through `_run`,
`sifted`, `__init__` and `sift`; stages/sifted.py:356-394, 397-485, 286-345, 527-539. -/
def siftedLocals (inputs : Frame V) : Option (Frame V) := do
  let a ← call I siftedSig siftedCall inputs
  let i ← call I siftedInitSig siftedInitCall (start a)
  let b ← call I siftSig siftCall (start a)
  let c ← call I innerSiftedSig innerSiftedCall (start b)
  let s := c ++ valuesOf I siftedAttrs (start i)
  return start (valuesOf I innerSiftedPrefix (start s) ++ s)

/-- The five places at which `_sifted` returns, stages/sifted.py:567-586, 604-623, 630-649, 672-691,
692-711. -/
inductive SiftedExit
  | fewFeatures | fewCorrelated | fewClusters | density | search
  deriving DecidableEq, Repr

/-- The output made at each of them, stages/sifted.py:567-586, 604-623, 630-649, 672-691, 692-711. -/
def SiftedExit.out : SiftedExit → Args
  | .fewFeatures => siftedOut1
  | .fewCorrelated => siftedOut2
  | .fewClusters => siftedOut3
  | .density => siftedOut4
  | .search => siftedOut5

/-- The names assigned on the way there, stages/sifted.py:541-566, 541-603, 541-629, 541-671, 541-660. -/
def SiftedExit.assigned : SiftedExit → List String
  | .fewFeatures => siftedAssigned1
  | .fewCorrelated => siftedAssigned2
  | .fewClusters => siftedAssigned3
  | .density => siftedAssigned4
  | .search => siftedAssigned5

/-- `SiftedStage._run`, stages/sifted.py:356-386. -/
def runSifted (e : SiftedExit) (body : Frame V → Frame V) (inputs : Frame V) : Option (Frame V) := do
  let l ← siftedLocals I inputs
  (call I siftedFields e.out (after e.assigned body l)).map start

/-- `PilotStage._run`, stages/pilot.py:125-164; `given` tells whether alpha and x0 are present
(stages/pilot.py:289-318). -/
def runPilot (given : Bool) (body : Frame V → Frame V) (inputs : Frame V) : Option (Frame V) := do
  let a ← call I pilotSig pilotCall inputs
  (call I pilotFields (if given then pilotOut1 else pilotOut2) (after pilotAssigned body (start a))).map start

/-- The local variables of `pythia` when it is done, stages/pythia.py:272-281, 284-490. -/
def pythiaLocals (body : Frame V → Frame V) (inputs : Frame V) : Option (Frame V) := do
  let a ← call I pythiaSig pythiaCall inputs
  return after pythiaAssigned body (start a)

/-- `PythiaStage._run`, stages/pythia.py:272-281, 492-511. -/
def runPythia (body : Frame V → Frame V) (inputs : Frame V) : Option (Frame V) := do
  let l ← pythiaLocals I body inputs
  (call I pythiaFields pythiaOut l).map start

/-- `CloisterStage._run`, stages/cloister.py:143-158. -/
def runCloister (body : Frame V → Frame V) (inputs : Frame V) : Option (Frame V) := do
  let a ← call I cloisterSig cloisterCall inputs
  (call I cloisterFields cloisterOut (after cloisterAssigned body (start a))).map start

/-- The attributes `_trace` works with, stages/trace.py:270-310, 313-350, 203-239; `useSim` is
`inputs.trace_options.use_sim` (stages/trace.py:290). -/
def traceLocals (useSim : Bool) (inputs : Frame V) : Option (Frame V) := do
  let a ← call I traceSig (if useSim then traceCall1 else traceCall2) inputs
  let i ← call I traceInitSig traceInitCall (start a)
  return start (valuesOf I traceAttrs (start i))

/-- `TraceStage._run`, stages/trace.py:270-310, 512-518. -/
def runTrace (useSim : Bool) (body : Frame V → Frame V) (inputs : Frame V) : Option (Frame V) := do
  let l ← traceLocals I useSim inputs
  (call I traceFields traceOut (after innerTraceAssigned body l)).map start

end Verif.Wiring
