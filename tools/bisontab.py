"""Read the verbatim tables out of /repo/src/parser/bison_parser.cpp (text only)."""
import re
SRC='/repo/src/parser/bison_parser.cpp'
txt=open(SRC).read()
lines=txt.split('\n')
def table(name):
    m=re.search(r'static const \w+ '+name+r'\[\] =\s*\{(.*?)\};',txt,re.S)
    start=txt[:m.start()].count('\n')+1
    end=txt[:m.end()].count('\n')+1
    vals=[int(x) for x in re.findall(r'-?\d+',m.group(1))]
    return vals,(start,end)
names=['yytranslate','yyrline','yytoknum','yypact','yydefact','yypgoto','yydefgoto','yytable','yycheck','yystos','yyr1','yyr2']
T={};L={}
for n in names:
    T[n],L[n]=table(n)
m=re.search(r'static const char \*const yytname\[\] =\s*\{(.*?)\};',txt,re.S)
T['yytname']=[s for s in re.findall(r'"((?:[^"\\]|\\.)*)"',m.group(1))]
L['yytname']=(txt[:m.start()].count('\n')+1,txt[:m.end()].count('\n')+1)
def const(n): return int(re.search(r'#define '+n+r'\s+\(?(-?\d+)\)?',txt).group(1))
C={n:const(n) for n in ['YYFINAL','YYLAST','YYNTOKENS','YYNNTS','YYNRULES','YYNSTATES','YYUNDEFTOK','YYMAXUTOK','YYPACT_NINF','YYTABLE_NINF']}
if __name__=='__main__':
    print(C)
    for n in names: print(n,len(T[n]),min(T[n]),max(T[n]),L[n])
    print(len(T['yytname']),T['yytname'][:20],T['yytname'][170:220])
