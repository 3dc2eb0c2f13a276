"""Compare the tables of lean/Verif/Model/Types.lean with the enums in /repo/src/instruction.  Prints
True for: variants in order, opcode text, format; and that both tables cover every variant."""
import re,glob
lean=open('/verif/lean/Verif/Model/Types.lean').read()
names={'base_i':'BaseI','m_extension':'M','a_extension':'A','c_extension':'C','zifencei_extension':'Zifencei','zicboz_extension':'Zicboz','zicsr_extension':'Zicsr','zicfiss_extension':'Zicfiss','zicntr_extension':'Zicntr','priv_extension':'Priv'}
for f,n in names.items():
    s=open(f'/repo/src/instruction/{f}.rs').read()
    s=re.sub(r'//[^\n]*','',s)
    en=re.search(r'pub enum %sOpcode \{(.*?)\}'%n,s,re.S).group(1)
    vs=[v.strip() for v in en.split(',') if v.strip()]
    vs=[re.sub(r'#\[[^\]]*\]\s*','',v) for v in vs]
    txt={}
    for a,t in re.findall(r'((?:\w+::\w+\s*\|?\s*)+)=>\s*write!\(f,\s*"([^"]*)"\)',s):
        for v in re.findall(r'::(\w+)',a): txt[v]=t
    fmt={}
    g=s[s.index('fn get_format'):]
    for a,t in re.findall(r'((?:\|?\s*\w+::\w+\s*)+)=>\s*\{?\s*InstFormat::(\w+)',g):
        for v in re.findall(r'::(\w+)',a): fmt[v]=t
    le=re.search(r'inductive %sOpcode where\n(.*?)\n  deriving'%n,lean,re.S).group(1)
    lvs=re.findall(r'\| (\w+)',le)
    lt=dict(re.findall(r'\| \.(\w+) => "([^"]*)"',re.search(r'def %sOpcode.toStr.*?\n\n'%n,lean,re.S).group(0)))
    lf={}
    for a,t in re.findall(r'((?:\| \.\w+ )+)=> \.(\w+)',re.search(r'def %sOpcode.getFormat.*?\n\n'%n,lean,re.S).group(0)):
        for v in re.findall(r'\.(\w+)',a): lf[v]=t
    print(n,len(vs),vs==lvs,txt==lt,fmt==lf,set(txt)==set(vs),set(fmt)==set(vs))
    if txt!=lt: print({k for k in set(txt)|set(lt) if txt.get(k)!=lt.get(k)})
    if fmt!=lf: print({k for k in set(fmt)|set(lf) if fmt.get(k)!=lf.get(k)})
