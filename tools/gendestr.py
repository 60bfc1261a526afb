#!/usr/bin/env python3
"""Generate Verif/Sem/Names.lean: yytname and the destructor of every symbol (bison_parser.cpp, yydestruct)."""
import re
from bisontab import T,C,L,txt
from genact import stype
names=T['yytname']
i0=txt.index('\nyydestruct (const char'); i1=txt.index('default:',i0)
body=txt[i0:i1]; ln0=txt[:i0].count('\n')+2
KIND={181:'.keep',182:'.tup [.str, .str]',186:'.vec .str',194:'.str',195:'.vec .del',203:'.fields [.keep, .str]',207:'.del'}
BYTYPE={}
for t in 'fval ival bval join_type order_type datetime_field column_type_t column_constraint_t import_type_t lock_mode_t lock_wait_policy_t frame_type null_ordering_t'.split(): BYTYPE[t]=181
BYTYPE['table_name']=182; BYTYPE['str_vec']=186; BYTYPE['sval']=194; BYTYPE['csv_option_t']=203
for t in 'table_vec table_element_vec update_vec expr_vec order_vec stmt_vec'.split(): BYTYPE[t]=195
D=['.keep']*len(names); seen={}
for m in re.finditer(r'case (\d+): /\* (\S+)  \*/\n#line (\d+) ',body):
    k=int(m.group(1)); assert names[k]==m.group(2); seen[k]=int(m.group(3)); D[k]=KIND[int(m.group(3))]
for k,n in enumerate(names):
    exp=BYTYPE.get(stype[n],207) if n in stype else None
    if n=='$end' or n=='error' or n=='$undefined': exp=None
    assert seen.get(k)==exp,(n,seen.get(k),exp)
def lit(s): return 'b!"'+s.replace('\\','\\\\').replace('"','\\"')+'"'
assert not any(n.startswith('"') or n.startswith('\\"') for n in names)
out=['import Verif.Sem.Value','/-! Generated by tools/gendestr.py from src/parser/bison_parser.cpp. -/','namespace Verif.Sem\n']
out.append(f'/-- src/parser/bison_parser.cpp:{L["yytname"][0]}-{L["yytname"][1]}, `yytname`. -/')
out.append('def yytname : List Bytes := [')
for i in range(0,len(names),8): out.append('  '+', '.join(lit(x) for x in names[i:i+8])+(',' if i+8<len(names) else ''))
out.append(']\n')
out.append(f'/-- What `yydestruct` does with the value of each symbol (src/parser/bison_parser.cpp:{ln0}-{txt[:i1].count(chr(10))+1}; the\n`%destructor`s of src/parser/bison_parser.y:181-207). -/')
out.append('def destructors : List How := [')
for i in range(0,len(names),6): out.append('  '+', '.join(D[i:i+6])+(',' if i+6<len(names) else ''))
out.append(']\n')
out.append('end Verif.Sem')
open('/verif/lean/Verif/Sem/Names.lean','w').write('\n'.join(out)+'\n')
print(len(names))
