import re,os
S="/repo/thermal_parser/src/"
CONST=dict(NUL=0,ESC=0x1b,HT=9,LF=10,FF=12,CR=13,GS=0x1d,FS=0x1c,DLE=0x10,CAN=0x18)
KIND=dict(Control='control',Text='text',TextStyle='textStyle',Graphics='graphics',Context='context',ContextControl='contextControl',Subcommand='subcommand',Unknown='unknown')
DK=dict(Empty='empty',Single='single',Double='double',Triple='triple',Quad='quad',Octet='octet',Text='text',Custom='custom',Subcommand='subcommand',Unknown='unknown')
def byte(t):
    t=t.strip()
    if t in CONST: return CONST[t]
    m=re.fullmatch(r"'(.+)' as u8",t)
    if m:
        c=m.group(1)
        if c=='\\\\': c='\\'
        return ord(c)
    t=t.replace('u8','')
    return int(t,0)
def camel(s):
    p=s.split('_'); return p[0]+''.join(x.capitalize() for x in p[1:])
def load(path):
    src=open(S+path).read()
    lines=src.split('\n')
    st=[i for i,l in enumerate(lines) if l.startswith('pub fn new()')][0]
    en=[i for i,l in enumerate(lines) if l.startswith('}') and i>st][0]
    body='\n'.join(lines[st:en+1])
    m=re.search(r'Command::new\(\s*"((?:[^"\\]|\\.)*)",(?:\s*//[^\n]*)?\s*vec!\[(.*?)\],\s*CommandType::(\w+),\s*DataType::(\w+),',body,re.S)
    name,bs,k,d=m.groups()
    # split on commas outside quotes
    parts=re.findall(r"'.+?' as u8|[^,\s][^,]*",bs)
    return name,[byte(x) for x in parts if x.strip()],KIND[k],DK[d],f"{path}:{st+1}-{en+1}",body
def order(path,fn='let commands = vec'):
    src=open(S+path).read()
    return re.findall(r'^\s+(\w+)::new\(\),',src,re.M)
out=[]
out.append("""import Verif.Model.Command
/-
Command tables: thermal_parser/src/command_sets/esc_pos.rs and every `new()` of commands/*.rs and
subcommands/*/*.rs, transcribed by script from the sources.  Paths are relative to
thermal_parser/src.
-/
namespace Thermal

""")
def lst(b): return '['+', '.join(map(str,b))+']'
special={'barcode':'.barcode {}','bit_image':'.bitImage {}','raster_bit_image':'.raster {}','set_character_effects':'.charEffects 2'}
cmds=order('command_sets/esc_pos.rs')
def emit(mod):
    name,b,k,d,cite,body=load(f'commands/{mod}.rs')
    m=re.search(r'subcommands::new\((\w+), (\w+), subcommands::(\S+)\(\)\)',body)
    if m:
        t={'gs_code2d::all':'code2d','gs_graphics::all':'graphics','no_commands':'none'}[m.group(3)]
        h=f'.sub {{ table := .{t}, isLarge := {m.group(1)}, useM := {m.group(2)} }}'
    elif mod in special: h=special[mod]
    else: h=f'.unit .{camel(mod)}'
    out.append(f'/-- {cite} -/\ndef {camel(mod)}Cmd : Command :=\n  {{ name := "{name}", commands := {lst(b)}, kind := .{k}, dataKind := .{d},\n    handler := {h} }}\n\n')
for mod in cmds+['text','unknown','begin_print','end_print']:
    emit(mod)
def emitsub(dirn,fixname,names):
    for mod in names:
        name,b,k,d,cite,body=load(f'subcommands/{dirn}/{mod}.rs')
        assert d=='subcommand'
        out.append(f'/-- {cite} -/\ndef {fixname(mod)}Sub : SubCmd :=\n  {{ name := "{name}", commands := {lst(b)}, kind := .{k}, id := .{fixname(mod)} }}\n\n')
gfix={'clear_all_download_graphics':'clearAllDownload','clear_all_nv_graphics':'clearAllNv','clear_download_graphic':'clearDownload','clear_nv_graphic':'clearNv','define_download_graphics_column':'defineDownloadColumn','define_download_graphics_raster':'defineDownloadRaster','define_nv_graphics_column':'defineNvColumn','define_nv_graphics_raster':'defineNvRaster','get_download_keycodes':'getDownloadKeycodes','get_nv_capacity':'getNvCapacity','get_nv_keycodes':'getNvKeycodes','get_nv_remaining_capacity':'getNvRemaining','print_buffer_graphics':'printBuffer','print_download_graphics':'printDownload','print_nv_graphic':'printNv','set_dot_density':'setDotDensity','store_buffer_graphics_raster':'storeBufferRaster','store_buffer_graphics_column':'storeBufferColumn'}
g=order('subcommands/gs_graphics/mod.rs')
seen=[]
for m_ in g:
    if m_ not in seen: seen.append(m_)
emitsub('gs_graphics',lambda m:gfix[m],seen)
c=order('subcommands/gs_code2d/mod.rs')
emitsub('gs_code2d',camel,c)
out.append('/-- subcommands/gs_graphics/mod.rs:24-48 `all()` (same order; the raster download entry occurs twice). -/\ndef gsGraphicsAll : List SubCmd :=\n  ['+',\n   '.join(gfix[m]+'Sub' for m in g)+']\n\n')
out.append('/-- subcommands/gs_code2d/mod.rs:46-91 `all()` (same order). -/\ndef gsCode2dAll : List SubCmd :=\n  ['+',\n   '.join(camel(m)+'Sub' for m in c)+']\n\n')
out.append('/-- command_sets/esc_pos.rs:5-60 `commands` (same order). -/\ndef escPosCommands : List Command :=\n  ['+',\n   '.join(camel(m)+'Cmd' for m in cmds)+']\n\nend Thermal\n')
open('/verif/lean/Verif/Model/CommandSet.lean','w').write(''.join(out))
print(len(cmds),len(g),len(c))
