import re,sys
sys.path.insert(0,__file__.rsplit('/',1)[0])
from gen_decides import *
def closure(pat):
    has={}
    for c in order:
        body="".join(b for (k,f),b in defs.items() if k==c)
        deps=set(re.findall(r'\b(\w+)\.fromBytes',body))-{c}
        has[c]=bool(re.search(pat,body)) or any(has[d] for d in deps)
    return has
F=closure('readFloat|unpackFrom'); T=closure('readDebugString|readString')
prims=["int8Array2","int8Array3","int8Array5","int8Array6","int8Array10","int16Array2","int16Array3","int16Array4","int16Array6","int32Array10"]
rd=lambda p:"read"+p[0].upper()+p[1:]
out='''import Verif.Proof.Classes
import Verif.Model.Datfile
/-!
# Which exceptions a reader does not raise (generated by `tools/gen_avoids.py`)
-/

namespace Genie

/-- `r` raises none of the exceptions `S`. -/
def Avoids (S : PyErr → Prop) (r : Reader α) : Prop := ∀ h e, r h = .error e → ¬ S e

/-- No `AssertionError`, no `UnicodeDecodeError`. -/
def TextErr (e : PyErr) : Prop := e = .assertionError ∨ e = .unicodeDecodeError
/-- No `struct.error`. -/
def DataErr (e : PyErr) : Prop := e = .structError

theorem Avoids.pure {S : PyErr → Prop} (a : α) : Avoids S (pure a : Reader α) := fun _ _ h => by cases h

theorem Avoids.bind {S : PyErr → Prop} {r : Reader α} {f : α → Reader β} (h1 : Avoids S r) (h2 : ∀ a, Avoids S (f a)) :
    Avoids S (r >>= f) := by
  intro h e he
  have hb : (r >>= f) h = match r h with | .error e => .error e | .ok (a, h') => f a h' := rfl
  rw [hb] at he
  cases hr : r h with
  | error e' =>
    rw [hr] at he
    simp only [Except.error.injEq] at he
    subst he
    exact h1 h _ hr
  | ok p => rw [hr] at he; exact h2 _ _ _ he

theorem Avoids.raise {S : PyErr → Prop} {e : PyErr} (h : ¬ S e) : Avoids S (Genie.raise e : Reader α) := by
  intro hd e' he
  simp only [Genie.raise, Except.error.injEq] at he
  subst he; exact h

theorem Avoids.liftPy {S : PyErr → Prop} {x : Py α} (h : ∀ e, x = .error e → ¬ S e) : Avoids S (Genie.liftPy x) := by
  intro hd e he
  cases x with
  | error e' =>
    simp only [Genie.liftPy, Except.error.injEq] at he
    subst he; exact h _ rfl
  | ok a => cases he

theorem Avoids.noteLossy {S : PyErr → Prop} {b : Bool} : Avoids S (Genie.noteLossy b) := fun _ _ h => by cases h
theorem Avoids.getVersion {S : PyErr → Prop} : Avoids S Genie.getVersion := fun _ _ h => by cases h
theorem Avoids.range {S : PyErr → Prop} {n : Nat} : Avoids S (consumeRange n) := fun _ _ h => by cases h
theorem Avoids.int8 {S : PyErr → Prop} : Avoids S readInt8 := fun _ _ h => by cases h
theorem Avoids.int16 {S : PyErr → Prop} {s : Bool} : Avoids S (readInt16 s) := fun _ _ h => by cases h
theorem Avoids.int32 {S : PyErr → Prop} {s : Bool} : Avoids S (readInt32 s) := fun _ _ h => by cases h

theorem Avoids.float : Avoids TextErr readFloat :=
  Avoids.bind Avoids.range fun c => Avoids.bind Avoids.noteLossy fun _ => Avoids.liftPy fun e he => by
    unfold Float_from_bytes unpackNativeF at he
    split at he
    · cases he
    · cases he; simp [TextErr]

theorem Avoids.debugString : Avoids DataErr readDebugString := by
  refine Avoids.bind Avoids.int16 fun _ => ?_
  split
  · exact Avoids.raise (by simp [DataErr])
  · refine Avoids.bind Avoids.int16 fun _ => Avoids.bind Avoids.range fun c => Avoids.bind Avoids.noteLossy fun _ => Avoids.liftPy fun e he => ?_
    rw [strDecode_error he]; simp [DataErr]

theorem Avoids.unpack {fmt : String} {n : Nat} : Avoids TextErr (unpackFrom fmt n) :=
  Avoids.bind Avoids.range fun c => Avoids.bind Avoids.noteLossy fun _ => Avoids.liftPy fun e he => by
    unfold structUnpack at he
    split at he
    · cases he; simp [TextErr]
    · split at he
      · cases he
      · cases he; simp [TextErr]

theorem Avoids.repeatR {S : PyErr → Prop} {r : Reader α} (h : Avoids S r) (n : Nat) : Avoids S (Genie.repeatR r n) := by
  induction n with
  | zero => exact Avoids.pure _
  | succ n ih => exact Avoids.bind h fun _ => Avoids.bind ih fun _ => Avoids.pure _

theorem Avoids.array {S : PyErr → Prop} {r : Reader α} {n : Int} {b : Bool} (h : Avoids S r) : Avoids S (readArray r n b) :=
  Avoids.bind Avoids.noteLossy fun _ => Avoids.repeatR h _

theorem Avoids.readIf {S : PyErr → Prop} {c : Prop} [Decidable c] {r : Reader α} (h : Avoids S r) : Avoids S (Genie.readIf c r) := by
  unfold Genie.readIf
  split
  · exact Avoids.bind h fun _ => Avoids.pure _
  · exact Avoids.pure _

theorem Avoids.readOr {S : PyErr → Prop} {c : Prop} [Decidable c] {r : Reader α} {a : α} (h : Avoids S r) :
    Avoids S (Genie.readOr c r a) := by
  unfold Genie.readOr
  split
  · exact h
  · exact Avoids.pure _

theorem Avoids.popInt {vs : List Val} {k : Int → List Val → Reader β} (h : ∀ i vs, Avoids TextErr (k i vs)) :
    Avoids TextErr (Genie.popInt vs k) := by
  unfold Genie.popInt
  split
  · exact h _ _
  · exact Avoids.raise (by simp [TextErr])
  · exact Avoids.raise (by simp [TextErr])

theorem Avoids.popFloat {vs : List Val} {k : PyFloat → List Val → Reader β} (h : ∀ i vs, Avoids TextErr (k i vs)) :
    Avoids TextErr (Genie.popFloat vs k) := by
  unfold Genie.popFloat
  split
  · exact h _ _
  · exact Avoids.raise (by simp [TextErr])
  · exact Avoids.raise (by simp [TextErr])

theorem Avoids.popDone {vs : List Val} {k : Reader β} (h : Avoids TextErr k) : Avoids TextErr (Genie.popDone vs k) := by
  unfold Genie.popDone
  split
  · exact h
  · exact Avoids.raise (by simp [TextErr])

theorem Avoids.class_ {S : PyErr → Prop} {r : Reader α} (h : Avoids S r) : Avoids S (readClass r) := h
theorem Avoids.classArray {S : PyErr → Prop} {r : Reader α} {n : Int} {b : Bool} (h : Avoids S r) : Avoids S (readClassArray r n b) :=
  Avoids.array h
theorem Avoids.int8Array {S : PyErr → Prop} {n : Int} : Avoids S (readInt8Array n) := Avoids.array Avoids.int8
theorem Avoids.int16Array {S : PyErr → Prop} {n : Int} : Avoids S (readInt16Array n) := Avoids.array Avoids.int16
theorem Avoids.int32Array {S : PyErr → Prop} {n : Int} : Avoids S (readInt32Array n) := Avoids.array Avoids.int32
theorem Avoids.floatArray {n : Int} : Avoids TextErr (readFloatArray n) := Avoids.array Avoids.float

macro "avoids_fixed" : tactic => `(tactic| repeat (first
  | exact Avoids.pure _ | exact Avoids.int8 | exact Avoids.int16 | exact Avoids.int32 | exact Avoids.float | assumption
  | (refine Avoids.bind ?_ fun _ => ?_)))

'''
for p in prims: out+=f"theorem Avoids.{p} {{S : PyErr → Prop}} : Avoids S {rd(p)} := by unfold {rd(p)}; avoids_fixed\n"
for p in ["floatArray2","floatArray3"]: out+=f"theorem Avoids.{p} : Avoids TextErr {rd(p)} := by unfold {rd(p)}; avoids_fixed\n"
for p in ["classArray3","classArray4"]: out+=f"theorem Avoids.{p} {{S : PyErr → Prop}} {{r : Reader α}} (h : Avoids S r) : Avoids S ({rd(p)} r) := by\n  unfold {rd(p)}; avoids_fixed\n"
out+='''
/-- Prove a goal `Avoids S (do …)`. -/
macro "avoids" : tactic => `(tactic| with_reducible repeat (first
  | exact Avoids.pure _
  | refine Avoids.popInt fun _ _ => ?_ | refine Avoids.popFloat fun _ _ => ?_ | refine Avoids.popDone ?_
  | (refine Avoids.bind ?_ fun _ => ?_)
  | exact Avoids.int8 | exact Avoids.int16 | exact Avoids.int32 | exact Avoids.float
  | exact Avoids.debugString | exact Avoids.getVersion | exact Avoids.noteLossy
  | exact Avoids.int8Array | exact Avoids.int16Array | exact Avoids.int32Array | exact Avoids.floatArray
'''+"".join(f"  | exact Avoids.{p}\n" for p in prims+["floatArray2","floatArray3"])+'''  | assumption
  | refine Avoids.class_ ?_ | refine Avoids.classArray ?_ | refine Avoids.classArray3 ?_ | refine Avoids.classArray4 ?_
  | refine Avoids.readIf ?_ | refine Avoids.readOr ?_
  | exact Avoids.unpack
  | split))

'''
def gen2(S,name,has):
    out=[]
    for c in order:
        if has[c]: continue
        fs=[f for (k,f) in defs if k==c and f!='fromBytes' and f!='fromBytesWithCount']
        main='fromBytes' if (c,'fromBytes') in defs else 'fromBytesWithCount'
        body="".join(defs[(c,f)] for f in fs+[main])
        deps=sorted(set(re.findall(r'\b(\w+)\.fromBytes\b',body))-{c},key=order.index)
        haves="".join(f"  have := {d}.{name}\n" for d in deps)
        if main=='fromBytesWithCount':
            out.append(f"theorem {c}.{name} (n : Int) : Avoids {S} ({c}.fromBytesWithCount n) := by\n{haves}  unfold {c}.fromBytesWithCount; avoids\n"); continue
        for f in fs:
            out.append(f"theorem {c}.{name}_{f} : Avoids {S} {c}.{f} := by\n{haves}  unfold {c}.{f}; avoids\n")
        if fs: haves="".join(f"  have := {c}.{name}_{f}\n" for f in fs)
        out.append(f"theorem {c}.{name} : Avoids {S} {c}.fromBytes := by\n{haves}  unfold {c}.fromBytes; avoids\n")
    return "".join(out)
out+="/-! ## records without texts -/\n\n"+gen2("TextErr","noText",T)
out+="\n/-! ## records without floats and packed fields -/\n\n"+gen2("DataErr","noData",F)
out+="\nend Genie\n"
open('Verif/Proof/Avoids.lean','w').write(out)
print([c for c in order if T[c]]); print([c for c in order if not F[c]])
