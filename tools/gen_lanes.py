#!/usr/bin/env python3
"""Extracts the constants of the unrolled lane code of mzed_rescale_row (mzed.h) and
mzed_add_multiple_of_row (mzed.c) into Lean tables (lean/Verif/Model/LaneTables.lean)."""
import re
H=open('/repo/src/mzed.h').read().split('\n')
C=open('/repo/src/mzed.c').read().split('\n')
def rng(lines,pat):
    s=next(i for i,l in enumerate(lines) if pat in l and '{' in l and ';' not in l)
    e=next(i for i in range(s,len(lines)) if lines[i].startswith('}'))
    return s,e
first=re.compile(r'^\s*(?:case\s+(\d+):)?\s*(__t\d?) \^= ff->mul\(ff, x, \(?(__[af]\d?) & 0x([0-9A-F]+)ULL\)?\)<<\s*(\d+);\s*(?:(__[af]\d?) >>= (\d+);|break;)?\s*$')
last=re.compile(r'^\s*case\s+(\d+): (__t|_t\[j\]) \^= ff->mul\(ff, x, \((_[af])\[j\] & 0x([0-9A-F]+)ULL\)>>\s*(\d+)\)<<\s*(\d+);$')
out=[]
def parse(lines,pat,pre,fname):
    s,e=rng(lines,pat)
    w=None; mode=None; groups={}; order=[]
    cur=None; loop=0
    for i in range(s,e):
        l=lines[i]
        m=re.search(r'A->w == (\d+)',l)
        if m: w=int(m.group(1)); loop=0; cur=None
        if re.search(r'\bfor\(',l) and w: loop+=1; cur=None; sub=0
        if l.strip()=='' and loop: cur=None
        if re.search(r'__[af]\d? = _[af]\[j',l): cur=None
        m=first.match(l)
        if m:
            lab,tv,av,mask,shl,av2,shr=m.groups()
            if av2: assert av2==av
            if lab is not None: key=(w,'First')
            else:
                if cur is None:
                    # new group(s); count
                    cur=len([k for k in groups if k[0]==w and k[1].startswith('Mid')])
                key=(w,'Mid%d'%cur if tv[-1] not in '01' or w!=8 else 'Mid%d_%s'%(cur,tv[-1]))
            if tv[-1] in '01' : assert av[-1]==tv[-1]
            if key not in groups: groups[key]=[];order.append((key,i+1))
            groups[key].append((int(lab) if lab is not None else 0,mask,int(shr) if shr else 0,int(shl)))
            if lab is None: pass
            continue
        m=last.match(l)
        if m:
            lab,tv,av,mask,shr,shl=m.groups()
            key=(w,'Last')
            if key not in groups: groups[key]=[];order.append((key,i+1))
            groups[key].append((int(lab),mask,int(shr),int(shl)))
            continue
        assert 'ff->mul' not in l or 'mzed_' in l, l
    for key,line in order:
        g=groups[key]
        nm=f"{pre}{key[1]}{'_' if key[1][-1].isdigit() else ''}W{key[0]}"
        out.append(f"/-- {fname}:{line} ff. -/\ndef {nm} : List LaneOp := [\n  "+",\n  ".join(f"⟨{a}, 0x{b}#64, {c}, {d}⟩" for a,b,c,d in g)+"]\n")
        print(nm,len(g),line)
parse(H,'mzed_rescale_row(','rescale','mzed.h')
parse(C,'mzed_add_multiple_of_row(','addmul','mzed.c')
open('/verif/lean/Verif/Model/LaneTables.lean','w').write('''import Verif.Model.Gf2x

/-!
Generated by tools/gen_lanes.py from mzed.h / mzed.c: one entry per unrolled statement of
`mzed_rescale_row` and `mzed_add_multiple_of_row`, in source order.

* first-word switch / middle words: `case label: t ^= mul(x, a & mask) << shl; a >>= shr;`
  (`shr = 0` where the source has no further shift, label 0 where there is no label)
* last-word switch: `case label: t ^= mul(x, (a & mask) >> shr) << shl;`
-/

namespace M4rie

structure LaneOp where
  label : Nat
  mask : Word
  shr : Nat
  shl : Nat
deriving DecidableEq, Repr

'''+"\n".join(out)+"\nend M4rie\n")
