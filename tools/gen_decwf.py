#!/usr/bin/env python3
"""Generate lean/Verif/Proof/DecideWF.lean: decision procedures for the well-formedness specifications."""
import re
out=['''import Verif.Spec.Versioned
/-!
# Deciding well-formedness

One `Decidable` instance per well-formedness structure, so that concrete objects can be checked by the kernel
(generated by `tools/gen_decwf.py`).
-/

namespace Genie

instance (p : α → Prop) [DecidablePred p] (o : Option α) : Decidable (IfSome p o) :=
  match o with
  | none => isTrue (by intro a h; cases h)
  | some a => if h : p a then isTrue (by intro b hb; cases hb; exact h)
    else isFalse (fun hp => h (hp a rfl))

instance (c : Prop) [Decidable c] (p : α → Prop) [DecidablePred p] (o : Option α) : Decidable (PresentIff c p o) :=
  inferInstanceAs (Decidable (_ ∧ _))

instance (p : α → Prop) [DecidablePred p] (l : List α) : Decidable (∃ t, l = [t] ∧ p t) :=
  match l with
  | [] => isFalse (by rintro ⟨t, h, -⟩; cases h)
  | [a] => if h : p a then isTrue ⟨a, rfl, h⟩ else isFalse (by rintro ⟨t, e, hp⟩; cases e; exact h hp)
  | _ :: _ :: _ => isFalse (by rintro ⟨t, h, -⟩; cases h)

instance (o : Option Creatable) : Decidable (∀ c, o = some c → c.train_locations = []) :=
  match o with
  | none => isTrue (by intro c h; cases h)
  | some c => if h : c.train_locations = [] then isTrue (by intro b hb; cases hb; exact h)
    else isFalse (fun hp => h (hp c rfl))

instance (o : Option Creatable) (k : Int) :
    Decidable (∀ c t ts, o = some c → c.train_locations = t :: ts → k = t.hot_key_id) :=
  match o with
  | none => isTrue (by intro c _ _ h; cases h)
  | some c =>
    match h : c.train_locations with
    | [] => isTrue (by intro b t ts hb hh; cases hb; rw [h] at hh; cases hh)
    | t :: ts => if hk : k = t.hot_key_id then
        isTrue (by intro b t' ts' hb hh; cases hb; rw [h] at hh; cases hh; exact hk)
      else isFalse (fun hp => hk (hp c t ts rfl h))
''']
for f in ['Records','Versioned']:
    src=open(f'/verif/lean/Verif/Spec/{f}.lean').read()
    for m in re.finditer(r'^structure (\S+) (.*?) : Prop where\n((?:  .*\n)+)',src,re.M):
        name,params,body=m.group(1),m.group(2),m.group(3)
        fields=[]
        for line in body.split('\n'):
            mm=re.match(r'  (\w+) : (.*)$',line)
            if mm: fields.append([mm.group(1),mm.group(2)])
            elif line.strip(): fields[-1][1]+=' '+line.strip()
        if name=='DatFile.WFAt':
            out.append('''
/-- The number of terrains of a list of terrain restrictions. -/
def terrainsOf : List TerrainRestriction → Nat
  | [] => 0
  | r :: _ => r.passable_buildable_dmg_multiplier.length

instance (v : Version) (l : List TerrainRestriction) :
    Decidable (∃ n, n ≤ 32767 ∧ UpTo 32767 (TerrainRestriction.WF v n) l) :=
  decidable_of_iff (terrainsOf l ≤ 32767 ∧ UpTo 32767 (TerrainRestriction.WF v (terrainsOf l)) l)
    ⟨fun ⟨h1, h2⟩ => ⟨_, h1, h2⟩, by
      rintro ⟨n, h1, h2⟩
      cases l with
      | nil => exact ⟨by decide, by simp, by intro x hx; simp at hx⟩
      | cons r rs =>
        have : terrainsOf (r :: rs) = n := (h2.2 r (by simp)).passable_buildable_dmg_multiplier.1
        rw [this]; exact ⟨h1, h2⟩⟩
''')
        conj=' ∧\n     '.join('(%s)'%p for _,p in fields)
        hs=['h%d'%i for i in range(len(fields))]
        args=' '.join(re.findall(r'\((\w+) :',params))
        out.append(f'''
set_option maxRecDepth 4000 in
set_option synthInstance.maxSize 100000 in
set_option synthInstance.maxHeartbeats 0 in
set_option maxHeartbeats 0 in
instance {params} : Decidable ({name} {args}) :=
  decidable_of_iff ({conj})
    ⟨fun ⟨{', '.join(hs)}⟩ => ⟨{', '.join(hs)}⟩,
     fun ⟨{', '.join(hs)}⟩ => ⟨{', '.join(hs)}⟩⟩
''')
out.append('''
instance (v : Version) (x : Creatable) : Decidable (Creatable.WF v x) := inferInstanceAs (Decidable (Creatable.WFWith _ _ _))

end Genie
''')
open('/verif/lean/Verif/Proof/DecideWF.lean','w').write(''.join(out))
