#!/usr/bin/env python3
"""Generate lean/Verif/Model/Tables.lean from /repo/src/constants.rs.

Usage: python3 tools/gen_tables.py   (run in /verif; the generated file is committed)
Only transcribes numbers; enumerators become their discriminants, booleans stay booleans.
"""
import re
raw=open('/repo/src/constants.rs').read()
lineno=lambda pos: raw.count('\n',0,pos)+1
def strip(s):
    s=re.sub(r'//[^\n]*','',s); return re.sub(r'/\*.*?\*/','',s,flags=re.S)
env={'true':True,'false':False}
SCALARS='''REFS_PER_FRAME BLOCK_SIZES MI_SIZE NUM_REF_FRAMES MAX_SEGMENTS SEG_LVL_ALT_Q SEG_LVL_REF_FRAME SEG_LVL_SKIP
SEG_LVL_GLOBALMV SEG_LVL_MAX TX_SIZES TX_SIZES_ALL MAX_TILE_WIDTH MAX_TILE_AREA MAX_TILE_ROWS MAX_TILE_COLS
COMP_NEWMV_CTXS MV_INTRABC_CONTEXT CLASS0_SIZE WARPEDMODEL_PREC_BITS IDENTITY TRANSLATION ROTZOOM AFFINE
GM_ABS_TRANS_BITS GM_ABS_TRANS_ONLY_BITS GM_ABS_ALPHA_BITS GM_ALPHA_PREC_BITS GM_TRANS_PREC_BITS
GM_TRANS_ONLY_PREC_BITS REF_CAT_LEVEL MAX_REF_MV_STACK_SIZE DELTA_Q_SMALL DELTA_LF_SMALL SGRPROJ_PARAMS_BITS
SGRPROJ_PRJ_SUBEXP_K SELECT_SCREEN_CONTENT_TOOLS SELECT_INTEGER_MV RESTORATION_TILESIZE_MAX NUM_BASE_LEVELS
COEFF_BASE_RANGE SIG_COEF_CONTEXTS_EOB SIG_COEF_CONTEXTS_2D SIG_COEF_CONTEXTS SIG_REF_DIFF_OFFSET_NUM SUPERRES_NUM
SUPERRES_DENOM_MIN SUPERRES_DENOM_BITS TX_CLASS_2D TX_CLASS_HORIZ TX_CLASS_VERT PRIMARY_REF_NONE MAX_LOOP_FILTER
FRAME_LF_COUNT WIENER_COEFFS INTRABC_DELAY_PIXELS TX_SET_DCTONLY TX_SET_INTRA_1 TX_SET_INTRA_2 TX_SET_INTER_1
TX_SET_INTER_2 TX_SET_INTER_3'''.split()
ENUMS='FrameType FrameRestorationType Partition BlockSize YMode TxSize TxMode MVClass InterpFilter CompMode CompRefType RefFrame MvJoint TxType'.split()
TABLES='''coeff_base_ctx_offset coeff_base_pos_ctx_offset sgr_params sgrproj_xqd_min sgrproj_xqd_max
segmentation_feature_bits segmentation_feature_signed segmentation_feature_max remap_lr_type wiener_taps_mid
sgrproj_xqd_mid max_tx_depth subsampled_size tx_type_in_set_intra tx_type_in_set_inter tx_type_intra_inv_set1
tx_type_intra_inv_set2 tx_type_inter_inv_set1 tx_type_inter_inv_set12 tx_type_inter_inv_set3 wiener_taps_min
wiener_taps_max wiener_taps_k intra_mode_context size_group block_width block_height mi_width_log2 mi_height_log2
num_4x4_blocks_wide num_4x4_blocks_high tx_width tx_width_log2 tx_height tx_height_log2 tx_size_sqr tx_size_sqr_up
mode_to_txfm adjusted_tx_size sig_ref_diff_offset mag_ref_offset_with_tx_class palette_color_context
filter_intra_mode_to_intra_dir partition_subsize'''.split()
out=['/-! Generated by tools/gen_tables.py from src/constants.rs: constants, enumerators (as their discriminants) and',
     'lookup tables. A table access goes through `[i]?`, so that an index outside the table is visible. -/','','namespace Av1.K','']
for m in re.finditer(r'const (\w+)\s*: *(usize|isize) *= *([^;]+);',raw):
    try: env[m.group(1)]=eval(strip(m.group(3)),{},env)
    except Exception as e: continue
for n in SCALARS:
    m=re.search(r'const %s\s*:'%n,raw)
    out.append('/-- constants.rs %d -/'%lineno(m.start()))
    out.append('def %s : Nat := %d'%(n,env[n]))
out.append('')
enumnames={}
for e in ENUMS:
    m=re.search(r'enum %s \{(.*?)\n\}'%e,raw,flags=re.S)
    k=-1; names=[]
    for it in strip(m.group(1)).split(','):
        it=it.strip()
        if not it: continue
        if '=' in it:
            a,b=it.split('='); k=int(b); it=a.strip()
        else: k+=1
        names.append((it,k)); env[it]=k
    ty='Int' if any(v<0 for _,v in names) else 'Nat'
    out.append('/-! `enum %s`, constants.rs %d–%d -/'%(e,lineno(m.start()),lineno(m.end())))
    for a,b in names: out.append('def %s : %s := %d'%(a,ty,b))
    out.append('')
    enumnames[e]=ty
class P:
    def __init__(s,t): s.t=t; s.p=0
    def ws(s):
        while s.p<len(s.t) and s.t[s.p].isspace(): s.p+=1
    def val(s):
        s.ws()
        if s.t[s.p]=='[':
            s.p+=1; r=[]
            while True:
                s.ws()
                if s.t[s.p]==']': s.p+=1; return r
                r.append(s.val()); s.ws()
                if s.t[s.p]==',': s.p+=1
        m=re.match(r'[^,\]\[;]+',s.t[s.p:]); s.p+=m.end()
        return eval(re.sub(r'\w+::','',m.group(0).strip()),{},env)
def depth(v): return 1+depth(v[0]) if isinstance(v,list) else 0
def leaves(v):
    if isinstance(v,list):
        for x in v: yield from leaves(x)
    else: yield v
def show(v,ind):
    if not isinstance(v,list): return str(v).lower() if isinstance(v,bool) else str(v)
    if depth(v)==1: return '['+', '.join(show(x,0) for x in v)+']'
    return '[\n'+',\n'.join(' '*(ind+2)+show(x,ind+2) for x in v)+']'
for n in TABLES:
    m=re.search(r'const %s\s*:([^=]*)= *'%n,raw)
    if n=='max_tx_depth': assert m
    e=raw.index('];',m.end())
    v=P(strip(raw[m.end():e+1])).val()
    ls=list(leaves(v))
    ty='Bool' if isinstance(ls[0],bool) else 'Int' if (any(x<0 for x in ls) or 'isize' in m.group(1)) else 'Nat'
    t=ty
    for i in range(depth(v)): t='List '+(t if i==0 else '(%s)'%t)
    out.append('/-- `%s`, constants.rs %d–%d -/'%(n,lineno(m.start()),lineno(e)))
    out.append('def %s : %s := %s'%(n,t,show(v,0)))
    out.append('')
out+=['end Av1.K','']
open('lean/Verif/Model/Tables.lean','w').write('\n'.join(out))
