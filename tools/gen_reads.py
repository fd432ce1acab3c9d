#!/usr/bin/env python3
"""Write lean/Verif/Proof/Source/Reads{Common,Unit,Records}.lean: per module, the tree and that the parser returns it."""
import re
src=open('/verif/lean/Verif/Model/Source.lean').read()
import glob
mods={}
for f in sorted(glob.glob('/verif/lean/Verif/Model/Source*.lean')):
    for m in re.finditer(r'def (\w+)\.src : Cls where\n  name := n!"\w+"\n  module := n!"(\w+)"',open(f).read()):
        mods.setdefault(m.group(2),[]).append(m.group(1))
groups={'Common':['versions','datatypes','common','scripts'],'Unit':['task','unit'],'Records':['effect','sound','playercolour','graphic','terrainrestriction','terrainblock','randommaps','tech','techtree','unitheaders','civ','datfile']}
for g,ms in groups.items():
    imp='' if g!='Common' else ''
    o='import Verif.Proof.Source.Reads\nimport Verif.Model.Text%s\n'%g
    o+='import Verif.Model.Source\nimport Verif.Model.SourceIo\n'
    o+='/-!\n# What the parser makes of the files: the trees\n\nBy computation in the kernel: the text of a file is one closed term, its tree another.\n-/\n\nnamespace Genie.Src.Text\n'
    for m in ms:
        cs=['%s.src'%c for c in mods.get(m,[])]
        if m=='datfile': cs=['{ DatFile.src with funs := DatFile.src_parse :: DatFile.src_save :: DatFile.src.funs }']
        gl='module_%s.globals'%m
        if m=='common': gl='module_common.globals.take 13 ++ (n!"C", .const typeVar) :: module_common.globals.drop 13'
        fs='Scripts.functions' if m=='scripts' else '[]'
        b='main' if m=='scripts' else '.done'
        o+='\n/-- The trees of `/repo/src/genieutils/%s.py`. -/\ndef tree_%s : Parsed where\n  globals := %s\n  classes := [%s]\n  funs := %s\n  body := %s\n\ntheorem reads_%s : parseModule n!"%s" text_%s = some tree_%s := Parsed.same_eq (by decide +kernel)\n'%(m,m,gl,', '.join(cs),fs,b,m,m,m,m)
    if g=='Common':
        for pgm in ['loom','kings']:
            o+='\ntheorem reads_%s : parseProgram text_%s = some { globals := module_%s.globals, classes := [], funs := [], body := program_%s } :=\n  Parsed.same_eq (by decide +kernel)\n'%(pgm,pgm,pgm,pgm)
    o+='\nend Genie.Src.Text\n'
    open('/verif/lean/Verif/Proof/Source/Reads%s.lean'%g,'w').write(o)
