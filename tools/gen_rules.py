"""Generates Lean data files from the text of /repo/vermin/rules.py (parsed, never executed)."""
import ast,sys,os
src=open('/repo/vermin/rules.py').read()
tree=ast.parse(src)
def lstr(s):
    out='"'
    for ch in s:
        if ch in '"\\': out+='\\'+ch
        elif ch=='\n': out+='\\n'
        else: out+=ch
    return out+'"'
def ver(e):
    if isinstance(e,ast.Constant) and e.value is None: return None
    assert isinstance(e,ast.Tuple) and len(e.elts)==2, ast.dump(e)
    return (e.elts[0].value,e.elts[1].value)
def req(e):
    assert isinstance(e,ast.Tuple) and len(e.elts)==2
    return (ver(e.elts[0]),ver(e.elts[1]))
def lreq(r):
    a,b=r
    if a and b: return f"rb {a[0]} {a[1]} {b[0]} {b[1]}"
    if a: return f"r2 {a[0]} {a[1]}"
    if b: return f"r3 {b[0]} {b[1]}"
    return "rn"
def isbp(e):
    # not bp("name", config)
    assert isinstance(e,ast.UnaryOp) and isinstance(e.op,ast.Not) and e.operand.func.id=="bp"
    return e.operand.args[0].value
def val(e):
    if isinstance(e,ast.Call):
        assert e.func.id=="bpv" and len(e.args)==3
        return f".bpv {lstr(e.args[0].value)} ({lreq(req(e.args[1]))})"
    if isinstance(e,ast.IfExp):
        return f".ifNotBp {lstr(isbp(e.test))} ({lreq(req(e.body))}) ({lreq(req(e.orelse))})"
    if isinstance(e,ast.Tuple):
        a,b=e.elts
        if isinstance(b,ast.IfExp):
            n=isbp(b.test)
            return f".ifNotBp {lstr(n)} ({lreq((ver(a),ver(b.body)))}) ({lreq((ver(a),ver(b.orelse)))})"
        return f".const ({lreq(req(e))})"
    raise Exception(ast.dump(e))
def key(e):
    if isinstance(e,ast.Constant): return lstr(e.value)
    assert isinstance(e,ast.Tuple) and len(e.elts)==2
    return f"({lstr(e.elts[0].value)}, {lstr(e.elts[1].value)})"
funcs={}
for n in tree.body:
    if isinstance(n,ast.FunctionDef) and n.name in("MOD_REQS","MOD_MEM_REQS","KWARGS_REQS"):
        r=[x for x in n.body if isinstance(x,ast.Return)]
        assert len(r)==1 and len(n.body)==1,n.body
        funcs[n.name]=r[0].value
out='/verif/lean/Verif/Model/'
def emit(fn,defname,d,keytype,lines,chunk=100):
    items=[(key(k),val(v)) for k,v in zip(d.keys,d.values)]
    chunks=[items[i:i+chunk] for i in range(0,len(items),chunk)]
    s=f"import Verif.Model.Rules\n/- Generated from the text of vermin/rules.py:{lines} by tools/gen_rules.py. -/\nnamespace Vermin.Data\nopen Vermin Vermin.RuleVal\n\n"
    names=[]
    for i,c in enumerate(chunks):
        nm=f"{defname}{i}"
        names.append(nm)
        s+=f"/-- rules.py:{lines}, part {i} -/\ndef {nm} : List ({keytype} × RuleVal) := [\n"+",\n".join(f"  ({k}, {v})" for k,v in c)+"]\n\n"
    s+=f"/-- rules.py:{lines} -/\ndef {defname}Chunks : List (List ({keytype} × RuleVal)) := [{', '.join(names)}]\n\n"
    s+=f"/-- rules.py:{lines} -/\ndef {defname} : List ({keytype} × RuleVal) := {defname}Chunks.flatten\n\nend Vermin.Data\n"
    open(out+fn,'w').write(s)
    print(fn,len(items))
emit("RulesMod.lean","modReqs",funcs["MOD_REQS"],"String","16-197")
emit("RulesMem.lean","memReqs",funcs["MOD_MEM_REQS"],"String","199-2856")
emit("RulesKw.lean","kwReqs",funcs["KWARGS_REQS"],"(String × String)","2858-3754")

# small tables
small={n.targets[0].id:(n.value,n.lineno,n.end_lineno) for n in tree.body if isinstance(n,ast.Assign)}
s="import Verif.Model.Rules\n/- Generated from the text of vermin/rules.py by tools/gen_rules.py. -/\nnamespace Vermin.Data\nopen Vermin\n\n"
def hdr(nm):
    _,a,b=small[nm]; return f"/-- `{nm}` (rules.py:{a}-{b}) -/\n"
for nm,dn in (("STRFTIME_REQS","strftimeReqs"),("BYTES_REQS","bytesReqs"),("ARRAY_TYPECODE_REQS","arrayTypecodeReqs"),("CODECS_ERROR_HANDLERS","codecsErrorHandlers"),("DECORATOR_USER_FUNCTIONS","decoratorUserFunctions")):
    d=small[nm][0]
    s+=hdr(nm)+f"def {dn} : List (String × Req) := [\n"+",\n".join(f"  ({lstr(k.value)}, {lreq(req(v))})" for k,v in zip(d.keys,d.values))+"]\n\n"
d=small["CODECS_ERRORS_INDICES"][0]
s+=hdr("CODECS_ERRORS_INDICES")+"def codecsErrorsIndices : List (String × Nat) := [\n"+",\n".join(f"  ({lstr(k.value)}, {v.value})" for k,v in zip(d.keys,d.values))+"]\n\n"
d=small["CODECS_ENCODINGS_INDICES"][0]
s+=hdr("CODECS_ENCODINGS_INDICES")+"def codecsEncodingsIndices : List (String × List Nat) := [\n"+",\n".join(f"  ({lstr(k.value)}, [{', '.join(str(e.value) for e in v.elts)}])" for k,v in zip(d.keys,d.values))+"]\n\n"
d=small["CODECS_ENCODINGS"][0]
def ek(k):
    if isinstance(k,ast.Constant): return f".text {lstr(k.value)}"
    return f".names [{', '.join(lstr(e.value) for e in k.elts)}]"
s+=hdr("CODECS_ENCODINGS")+"def codecsEncodings : List (EncKey × Req) := [\n"+",\n".join(f"  ({ek(k)}, {lreq(req(v))})" for k,v in zip(d.keys,d.values))+"]\n\n"
for nm,dn in (("BUILTIN_GENERIC_ANNOTATION_TYPES","builtinGenericAnnotationTypes"),("DICT_UNION_SUPPORTED_TYPES","dictUnionSupportedTypes"),("DICT_UNION_MERGE_SUPPORTED_TYPES","dictUnionMergeSupportedTypes")):
    d=small[nm][0]
    s+=hdr(nm)+f"def {dn} : List String := [\n"+",\n".join("  "+lstr(e.value) for e in d.elts)+"]\n\n"
s+="end Vermin.Data\n"
open(out+"RulesSmall.lean",'w').write(s)

# codes of the keys (used to prove that keys are distinct)
def enc(acc,t):
    for ch in t: acc=acc*1114112+ord(ch)
    return acc
def codes(defname,d,chunk=100):
    ks=[]
    for k in d.keys:
        if isinstance(k,ast.Constant): ks.append(enc(1,k.value))
        else: ks.append(enc(enc(1,k.elts[0].value)*1114112,k.elts[1].value))
    assert len(set(ks))==len(ks)
    m=max(2000,len(ks)*len(ks)//18)
    while len({k%m for k in ks})!=len(ks): m+=1
    print(defname,"modulus",m)
    cs=[ks[i:i+chunk] for i in range(0,len(ks),chunk)]
    s=f"/-- The codes are distinct modulo this number. -/\ndef {defname}Modulus : Nat := {m}\n\n"
    for i,c in enumerate(cs):
        s+=f"def {defname}Codes{i} : List Nat := [\n"+",\n".join(f"  {n}" for n in c)+"]\n\n"
    s+=f"def {defname}CodesChunks : List (List Nat) := [{', '.join(f'{defname}Codes{i}' for i in range(len(cs)))}]\n\n"
    return s
s="/- Numbers for the keys of the rule tables, only used in proofs.  Generated by tools/gen_rules.py. -/\nnamespace Vermin.Data\n\n"
for fn,dn in (("MOD_REQS","modReqs"),("MOD_MEM_REQS","memReqs"),("KWARGS_REQS","kwReqs")): s+=codes(dn,funcs[fn])
s+="end Vermin.Data\n"
open('/verif/lean/Verif/Lemmas/RulesCodes.lean','w').write(s)
