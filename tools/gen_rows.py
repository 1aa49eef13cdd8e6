"""Write lean/Verif/Lemmas/Rows.lean from the table in Spec/Counts.lean and the catalogue."""
import re
HAND = '''/-- `uint(KeySize) - 8` -/
theorem keySize_length {i : Int} (h1 : -2147483648 ≤ i) (h2 : i < 2147483648) :
    2 ^ 63 ≤ sub64 (uintOfInt i) 8 ∨ (sub64 (uintOfInt i) 8 : Int) + 8 = i := by
  have hs : sub64 (uintOfInt i) 8 = (uintOfInt i + (2 ^ 64 - 8)) % 2 ^ 64 := rfl
  have hi : uintOfInt i = (i % (2 ^ 64 : Int)).toNat := rfl
  generalize sub64 (uintOfInt i) 8 = z at *
  generalize uintOfInt i = y at *
  omega

theorem cfoKey_length {ctx : Ctx} {sub : SV} : cfoKey.length "KeyValue" ctx sub = some (sub64 (uintOfInt (sub.int "KeySize")) 8) := by
  unfold cfoKey
  simp only [if_true]

theorem instField_length {c : Cfo} {ctx : Ctx} {sv : SV} {f : Field} {z : Nat} (hd : f.lenDyn = true)
   (h : c.length f.name ctx sv = some z) : (instField c ctx sv f).length = z := by
  simp [instField, hd, h]

theorem keyValue_tag {e : Env} {sub : SV} :
    (tagOf e (some cfoKey) sub { name := "KeyValue", size := 8, lenDyn := true }).length =
      sub64 (uintOfInt (sub.int "KeySize")) 8 := 
  instField_length (c := cfoKey) (ctx := e.ctx) (sv := sub) (f := { name := "KeyValue", size := 8, lenDyn := true }) rfl cfoKey_length

/-- Keys.Entries.KeyValue -/
theorem row19 : RowFacts Cat.bdKeys { box := "Keys", path := [("Entries", fun _ => true)], list := "KeyValue", count := "KeySize", extra := 8 } := by
  intro ctx sv
  refine ⟨(some cfoKey), Cat.fsKey, { name := "KeyValue", size := 8, lenDyn := true }, (.uint 8),
      (.cons (c := (some cfoKeys)) (fs := Cat.fsKeys) (f := { name := "Entries", lenDyn := true }) (t := (.slice Cat.tyKey)) (Fields.nodup_names Cat.fsKeys (by decide)) (by simp [Cat.fsKeys, Fields.ofList, Fields.toList]) rfl
        (fun sv' _ _ _ => by simp [there, instField, present, anyVersion])
      (.nil (c := (some cfoKey)) (fs := Cat.fsKey) (Fields.nodup_names Cat.fsKey (by decide)))),
      (by simp [Cat.fsKey, Fields.ofList, Fields.toList]), rfl, ?_⟩
  intro sub hs hty ho
  obtain ⟨kc, kl, ku⟩ := number_int (g := { name := "KeySize", size := 32 }) (w := 32) (Fields.nodup_names Cat.fsKey (by decide)) hty (by simp [Cat.fsKey, Fields.ofList, Fields.toList])
  simp only at kc kl ku
  refine ⟨by simp [there, instField, present, env, anyVersion], Or.inr ⟨rfl, by decide +kernel, by decide, rfl, ?_, ?_⟩⟩
  · intro x hx
    exact row_byte hx rfl rfl
  · rw [kc]
    have ht : (tagOf (env Cat.bdKeys ctx sv) (some cfoKey) sub { name := "KeyValue", size := 8, lenDyn := true }).length =
        sub64 (uintOfInt (sub.int "KeySize")) 8 := keyValue_tag
    rw [ht]
    exact keySize_length (by simpa using kl) (by simpa using ku)

theorem esds_path1 {ctx : Ctx} {sv sv' : SV} :
    there (env Cat.bdEsds ctx sv) (some Cfo.base) sv' { name := "Descriptors" } = true := by
  simp [there, instField, present, anyVersion]

theorem esds_path2 {ctx : Ctx} {sv sv' : SV} (h : sv'.int "Tag" = 3) :
    there (env Cat.bdEsds ctx sv) (some cfoDescriptor) sv' { name := "ESDescriptor", extend := true, optDyn := true } = true := by
  have key : cfoDescriptor.opt "ESDescriptor" ctx sv' = true := by simp [cfoDescriptor, h]
  simp [there, instField, present, anyVersion, env, key]

theorem esds_path3 {ctx : Ctx} {sv sv' : SV} (h3 : sv'.int "Tag" ≠ 3) (h4 : sv'.int "Tag" ≠ 4) :
    there (env Cat.bdEsds ctx sv) (some cfoDescriptor) sv' { name := "Data", size := 8, optDyn := true, lenDyn := true } = true := by
  have key : cfoDescriptor.opt "Data" ctx sv' = true := by simp [cfoDescriptor, h3, h4]
  simp [there, instField, present, anyVersion, env, key]

theorem esds_path4 {ctx : Ctx} {sv sv' : SV} (h : sv'.bool "UrlFlag" = true) :
    there (env Cat.bdEsds ctx sv) (some cfoESDescriptor) sv'
      { name := "URLString", size := 8, lenDyn := true, optDyn := true, isString := true } = true := by
  have key : cfoESDescriptor.opt "URLString" ctx sv' = true := by simp [cfoESDescriptor, h]
  simp [there, instField, present, anyVersion, env, key]

theorem mem_Descriptors : (({ name := "Descriptors" } : Field), Ty.slice Cat.tyDescriptor) ∈ Cat.fsEsds.toList :=
  List.mem_cons_of_mem _ (List.mem_cons_self ..)
theorem mem_ESDescriptor : (({ name := "ESDescriptor", extend := true, optDyn := true } : Field), Ty.ptr Cat.tyESDescriptor) ∈
    Cat.fsDescriptor.toList :=
  List.mem_cons_of_mem _ (List.mem_cons_of_mem _ (List.mem_cons_self ..))
theorem mem_Tag : (({ name := "Tag", size := 8 } : Field), Ty.int 8) ∈ Cat.fsDescriptor.toList :=
  List.mem_cons_self ..
theorem nodup_Descriptor : Cat.fsDescriptor.names.Nodup := Fields.nodup_names _ (by decide)

/-- Esds.Descriptors.Data -/
theorem row39 : RowFacts Cat.bdEsds { box := "Esds", path := [("Descriptors", fun _ => true)], list := "Data", count := "Size", only := fun sv => number sv "Tag" != 3 && number sv "Tag" != 4 } := by
  intro ctx sv
  refine ⟨(some cfoDescriptor), Cat.fsDescriptor, { name := "Data", size := 8, optDyn := true, lenDyn := true }, (.uint 8),
      (.cons (c := (some Cfo.base)) (fs := Cat.fsEsds) (f := { name := "Descriptors" }) (t := (.slice Cat.tyDescriptor))
        (Fields.nodup_names Cat.fsEsds (by decide)) mem_Descriptors rfl (fun sv' _ _ _ => esds_path1)
      (.nil (c := (some cfoDescriptor)) (fs := Cat.fsDescriptor) nodup_Descriptor)),
      List.mem_cons_of_mem _ (List.mem_cons_of_mem _ (List.mem_cons_of_mem _ (List.mem_cons_of_mem _ (List.mem_cons_self ..)))), rfl, ?_⟩
  intro sub hs hty ho
  have k0 := (number_int nodup_Descriptor hty mem_Tag).1
  simp only at k0
  have kc := number_uint (g := { name := "Size", varint := true }) (w := 32) nodup_Descriptor hty
    (List.mem_cons_of_mem _ (List.mem_cons_self ..))
  simp only at kc
  simp only [k0, Bool.and_eq_true, bne_iff_ne] at ho
  refine ⟨esds_path3 ho.1 ho.2, Or.inl ?_⟩
  rw [kc]
  simp [tagOf, instField, cfoDescriptor]

/-- Esds.Descriptors.ESDescriptor.URLString -/
theorem row40 : RowFacts Cat.bdEsds { box := "Esds", path := [("Descriptors", fun _ => true), ("ESDescriptor", fun sv => number sv "Tag" == 3)], list := "URLString", count := "URLLength", only := fun sv => sv.bool "UrlFlag" } := by
  intro ctx sv
  refine ⟨(some cfoESDescriptor), Cat.fsESDescriptor, { name := "URLString", size := 8, lenDyn := true, optDyn := true, isString := true }, (.uint 8),
      (.cons (c := (some Cfo.base)) (fs := Cat.fsEsds) (f := { name := "Descriptors" }) (t := (.slice Cat.tyDescriptor))
        (Fields.nodup_names Cat.fsEsds (by decide)) mem_Descriptors rfl (fun sv' _ _ _ => esds_path1)
      (.cons (c := (some cfoDescriptor)) (fs := Cat.fsDescriptor) (f := { name := "ESDescriptor", extend := true, optDyn := true }) (t := (.ptr Cat.tyESDescriptor))
        nodup_Descriptor mem_ESDescriptor rfl ?_
      (.nil (c := (some cfoESDescriptor)) (fs := Cat.fsESDescriptor) (Fields.nodup_names Cat.fsESDescriptor (by decide))))),
      (by simp [Cat.fsESDescriptor, Fields.ofList, Fields.toList]), rfl, ?_⟩
  · intro sv' _ hty h
    have k0 := (number_int nodup_Descriptor hty mem_Tag).1
    simp only at k0
    simp only [k0, beq_iff_eq] at h
    exact esds_path2 h
  intro sub hs hty ho
  have kc := number_uint (g := { name := "URLLength", size := 8, optDyn := true }) (w := 8) (Fields.nodup_names Cat.fsESDescriptor (by decide)) hty (by simp [Cat.fsESDescriptor, Fields.ofList, Fields.toList])
  simp only at kc
  refine ⟨esds_path4 ho, Or.inl ?_⟩
  rw [kc]
  simp [tagOf, instField, cfoESDescriptor]

'''
cat=open('/verif/lean/Verif/Model/Catalog.lean').read()
def fields(fs):
    m=re.search(r"def %s : Fields := Fields.ofList \[\n(.*?)\n  \]"%fs,cat,re.S)
    return [l.strip().rstrip(',') for l in m.group(1).split("\n")]
def field(fs,name):
    for l in fields(fs):
        if 'name := "%s"'%name in l:
            m=re.match(r'\((\{.*?\}), (.*)\)$',l)
            return m.group(1),m.group(2)
    raise Exception((fs,name))
spec=open('/verif/lean/Verif/Spec/Counts.lean').read()
body=spec[spec.index("def countedLists"):]
items=re.findall(r"\{ (box := .*?) \}(?:,|\n\])",body,re.S)
out=[]
for i,it in enumerate(items):
    if i in (19,39,40): continue   # written by hand, in HAND
    it=re.sub(r"\s+"," ",it)
    box=re.search(r'box := "(\w+)"',it).group(1)
    lst=re.search(r'list := "(\w+)"',it).group(1)
    cnt=re.search(r'count := "(\w+)"',it).group(1)
    path=[]
    m=re.search(r'path := \[(.*?)\], list',it)
    if m: path=re.findall(r'\("(\w+)", fun',m.group(1))
    conds=re.findall(r'number sv "(\w+)"',it)
    if 'ownLengths' in it: conds.append("DefaultLength")
    bd="Cat.bd"+box
    m=re.search(r"def bd%s : BoxDef := \{(.*?)\}\n"%box,cat)
    cfo=re.search(r"cfo := (\w+)",m.group(1)).group(1) if 'cfo :=' in m.group(1) else 'Cfo.base'
    fs="fs"+box
    fss=[fs]; cfos=["(some %s)"%cfo]; steps=[]
    for n in path:
        f,t=field(fss[-1],n)
        ty=re.search(r"ty\w+",t).group(0)
        mm=re.search(r"def %s : Ty := \.struct (none|\(some [\w.]+\)) (\w+)"%ty,cat)
        steps.append((n,f,t.replace(ty,"Cat."+ty),mm.group(1),mm.group(2)))
        fss.append(mm.group(2)); cfos.append(mm.group(1))
    f,t=field(fss[-1],lst)
    elem=re.match(r"\(\.slice (.*)\)$",t).group(1)
    if elem.startswith("ty"): elem="Cat."+elem
    g,gt=field(fss[-1],cnt)
    isint='.int' in gt
    def memp(fsn): return "(by simp [Cat.%s, Fields.ofList, Fields.toList])"%fsn
    def nd(fsn): return "(Fields.nodup_names Cat.%s (by decide))"%fsn
    def condnums(fsn,names,hyp,tgt):
        r=[]
        for j,n in enumerate(dict.fromkeys(names)):
            ff,tt=field(fsn,n)
            mm=re.match(r"\(\.(uint|int) (\d+)\)",tt)
            if mm.group(1)=='uint':
                r.append("have k%d := number_uint (g := %s) (w := %s) %s %s %s"%(j,ff,mm.group(2),nd(fsn),hyp,memp(fsn)))
                r.append("simp only at k%d"%j)
            else:
                r.append("obtain ⟨k%d, _, _⟩ := number_int (g := %s) (w := %s) %s %s %s"%(j,ff,mm.group(2),nd(fsn),hyp,memp(fsn)))
                r.append("simp only at k%d"%j)
        return r
    # the conditions appear on a particular struct
    def conds_of(fragment):
        c=re.findall(r'number sv "(\w+)"',fragment)
        if 'ownLengths' in fragment: c.append("DefaultLength")
        return c
    allcfo=[c.replace("(some ","").replace(")","") for c in cfos if c!='none']
    unf=", ".join(dict.fromkeys(["Cfo.counted","Cfo.counted0"]+[c for c in allcfo if c!="Cfo.base"]))
    out.append("/-- %s.%s -/"%(box,".".join(path+[lst])))
    out.append("theorem row%d : RowFacts %s { %s } := by"%(i,bd,it))
    out.append("  intro ctx sv")
    pt="(.nil (c := %s) (fs := Cat.%s) %s)"%(cfos[-1],fss[-1],nd(fss[-1]))
    condfrags=re.findall(r'\("\w+", (fun .*?)\)(?=, \("|\], list)',it)
    for k in range(len(steps)-1,-1,-1):
        n,ff,tt,c1,f1=steps[k]
        cn=condnums(fss[k],conds_of(condfrags[k]),"hty","h")
        tac="; ".join(["intro sv' hroot hty h"]+(["have hroot' := hroot rfl; subst hroot'"] if k==0 else [])+cn+["simp [there, instField, present, env, anyVersion, groupedBy, ownLengths, %s%s] at *"%(unf,"".join(", k%d"%j for j in range(len(dict.fromkeys(conds_of(condfrags[k]))))))]
            +["try simp_all [groupedBy, ownLengths, ascii, sgpdLists, avccOptNames]","try omega"])
        pt="(.cons (c := %s) (fs := Cat.%s) (f := %s) (t := %s) %s %s rfl (by %s)\n      %s)"%(cfos[k],fss[k],ff,tt,nd(fss[k]),memp(fss[k]),tac,pt)
    out.append("  refine ⟨%s, Cat.%s, %s, %s,\n      %s,\n      %s, rfl, ?_⟩"%(cfos[-1],fss[-1],f,elem,pt,memp(fss[-1])))
    out.append("  intro sub hs hty ho")
    if not path: out.append("  have hs' := hs rfl; subst hs'")
    onlyfrag=it[it.index("list :="):]
    for l in condnums(fss[-1],conds_of(onlyfrag),"hty",""): out.append("  "+l)
    nk=len(dict.fromkeys(conds_of(onlyfrag)))
    ks="".join(", k%d"%j for j in range(nk))
    if not isint:
        w=re.match(r"\(\.uint (\d+)\)",gt).group(1)
        out.append("  have kc := number_uint (g := %s) (w := %s) %s hty %s"%(g,w,nd(fss[-1]),memp(fss[-1])))
        out.append("  simp only at kc")
        out.append("  refine ⟨?_, Or.inl ?_⟩")
        out.append("  · simp [there, instField, present, env, anyVersion, groupedBy, ownLengths, %s%s] at ho ⊢\n    try simp_all [groupedBy, ownLengths, ascii, sgpdLists, avccOptNames]\n    try omega"%(unf,ks))
        out.append("  · rw [kc]\n    simp [tagOf, instField, env, %s%s] at ho ⊢\n    try simp_all [groupedBy, ownLengths, ascii, sgpdLists, avccOptNames]\n    try omega"%(unf,ks))
    else:
        w=re.match(r"\(\.int (\d+)\)",gt).group(1)
        out.append("  obtain ⟨kc, kl, ku⟩ := number_int (g := %s) (w := %s) %s hty %s"%(g,w,nd(fss[-1]),memp(fss[-1])))
        out.append("  simp only at kc kl ku")
        out.append("  refine ⟨by simp [there, instField, present, env, anyVersion], Or.inr ⟨rfl, by decide +kernel, by decide, rfl, ?_, ?_⟩⟩")
        out.append("  · intro x hx\n    exact %s"%("row_key hx" if elem=="Cat.tyKey" else "row_byte hx rfl rfl"))
        out.append("  · rw [kc]\n    simp [tagOf, instField, env, %s, uintOfInt, sub64, U64]\n    simp at kl ku\n    omega"%unf)
    out.append("")
out.append(HAND)
out.append("theorem rows_ok : ∀ row ∈ countedLists, ∃ bd ∈ Cat.allDefs, bd.goName = row.box ∧ RowFacts bd row := by")
out.append("  simp only [countedLists, List.forall_mem_cons]")
names=[re.search(r'box := "(\w+)"',it).group(1) for it in items]
out.append("  refine ⟨"+",\n    ".join("⟨Cat.bd%s, by simp [Cat.allDefs], rfl, row%d⟩"%(n,i) for i,n in enumerate(names))+", by simp⟩")
hdr='''import Verif.Lemmas.Lists

/-!
# The table of counted lists agrees with the methods of the box types

Written by a script; the statements repeat the rows of `Spec.countedLists`.
-/

set_option linter.unusedSimpArgs false

namespace Mp4

open Spec

theorem row_byte {e : Env} {fi : Field} {x : Val} (hx : typedV (.uint 8) x = true) (hv : fi.varint = false)
    (hs : fi.size = 8) : 1 ≤ (layoutV e (.uint 8) fi x).length := by
  obtain ⟨k, rfl, _⟩ := typedV_uint_inv hx
  simp [layoutV, hv, hs, natBits_length]

theorem row_key {ctx : Ctx} {sv : SV} {fi : Field} {x : Val} (hx : typedV Cat.tyKey x = true) :
    1 ≤ (layoutV (env Cat.bdKeys ctx sv) Cat.tyKey fi x).length := by
  cases x <;> simp only [Cat.tyKey, typedV] at hx <;> try contradiction
  next s =>
  have hm : (({ name := "KeySize", size := 32 } : Field), Ty.int 32) ∈ Cat.fsKey.toList := by
    simp [Cat.fsKey, Fields.ofList, Fields.toList]
  obtain ⟨v, hv, ht⟩ := typed_get (Fields.nodup_names Cat.fsKey (by decide)) hx hm
  have := layoutFields_mem (e := env Cat.bdKeys ctx sv) (top := false) (c := some cfoKey) rfl hm
    (by simp [there, instField, present, env, anyVersion]) hv
  simp only [Cat.tyKey, layoutV]
  cases v <;> simp only [typedV] at ht <;> try contradiction
  simp only [layoutV, natBits_length, tagOf, instField] at this
  simp at this
  omega

'''
open('/verif/lean/Verif/Lemmas/Rows.lean','w').write(hdr+"\n".join(out)+"\n\nend Mp4\n")
