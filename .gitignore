seeded/*.out.jsonl
__pycache__/
