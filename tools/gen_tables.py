#!/usr/bin/env python3
"""Generates lean/Verif/Tables/{Galois,Shamir}.lean verbatim from /repo/{galois,shamir}/tables.go.
Two-dimensional tables are packed one row per hexadecimal literal: the bytes of the Go row,
in source order, most significant byte first."""
import re, os
here=os.path.dirname(os.path.abspath(__file__))
def grab(path,name):
    t=open(path).read()
    lines=t.split('\n')
    t='\n'.join('' if l.strip().startswith('//') else l for l in lines)
    i=re.search(r'\b'+name+r'\s*=\s*(\[[^{]*)\{',t)
    j=i.end()-1; d=0; k=j
    while True:
        if t[k]=='{': d+=1
        if t[k]=='}':
            d-=1
            if d==0: break
        k+=1
    l0=t.count('\n',0,i.start())+1; l1=t.count('\n',0,k)+1
    body=t[j:k+1].replace('{','[').replace('}',']')
    body=re.sub(r',\s*\]',']',body)
    return (l0,l1),eval(body)
def emit(pkg,names,ns):
    path='/repo/%s/tables.go'%pkg
    o=["/-! Generated by tools/gen_tables.py from /repo/%s/tables.go; do not edit. -/"%pkg,
       "","namespace Verif.Tables.%s"%ns,""]
    for n in names:
        (a,b),v=grab(path,n)
        if isinstance(v[0],list):
            o.append("/-- %s/tables.go:%d-%d `%s`: row i is the i-th literal, its bytes in source order,\nfirst byte most significant (%d bytes per row). -/"%(pkg,a,b,n,len(v[0])))
            o.append("def %sRows : List Nat := ["%n)
            o.append(",\n".join("  0x"+"".join("%02x"%x for x in r) for r in v)+"]")
        else:
            o.append("/-- %s/tables.go:%d-%d `%s` (%d entries). -/"%(pkg,a,b,n,len(v)))
            o.append("def %s : List Nat := ["%n)
            rows=[v[i:i+16] for i in range(0,len(v),16)]
            o.append(",\n".join("  "+", ".join(str(x) for x in r) for r in rows)+"]")
        o.append("")
    o.append("end Verif.Tables.%s"%ns)
    open(os.path.join(here,'../lean/Verif/Tables/%s.lean'%ns),'w').write("\n".join(o)+"\n")
emit('galois','logTable expTable invTable mulTable mulTableLow mulTableHigh'.split(),'Galois')
emit('shamir','logTable expTable mulTable'.split(),'Shamir')
